import Verif.Lemmas.FastTypes
import Verif.Props.FastDict
import Verif.Py.Dec
/-!
# C73–C78 — dedicated OpenFAST input files (blades, polars) and their wrapper
-/
namespace Verif.FastTypes
open Verif.Py Verif.FastDict

/-! ## Values for the examples -/

inductive Val where
  | num (n : Nat)
  | tab (r c : Nat)
  | txt (s : Str)
deriving Repr, DecidableEq

/-- the observations on the example values; `toString` refuses an item labelled `Bad` -/
abbrev exEnv : Env Val where
  rows := fun | .tab r _ => some r | _ => none
  cols := fun | .tab _ c => some c | _ => none
  nat := .num
  int := fun | .num n => some n | _ => none
  numeric := fun | .num _ => true | _ => false
  text := fun | .txt s => some s | _ => none
  str := .txt
  toStringErr := fun d => if d.any (fun e => e.label = "Bad".toList) then some .other else none

abbrev line (s : String) : Entry Val := ⟨[], .txt s.toList, true, [], 0⟩
abbrev kv (k : String) (v : Val) : Entry Val := ⟨k.toList, v, false, [], 0⟩

/-! ## C73 — the counts written are the numbers of table lines -/

/-- `d` is `data` with the items `k` holding the number of lines of the table `t` -/
def Synced (E : Env V) (data d : Data V) (k t : String) (n : Nat) : Prop :=
  d.length = data.length ∧
  (∃ v, getitem data t.toList = some v ∧ E.rows v = some n) ∧
  ∀ (j : Nat) (e : Entry V), data[j]? = some e →
    (SameKey e.label k.toList → d[j]? = some { e with value := E.nat n }) ∧
    (¬ SameKey e.label k.toList → d[j]? = some e)

theorem synced_of (E : Env V) (data d : Data V) (k t : String)
    (h : syncCount E data k.toList t.toList = (d, none)) :
    ∃ n, Synced E data d k t n := by
  obtain ⟨v, n, hv, hn, rfl⟩ := syncCount_ok _ _ _ _ _ h
  refine ⟨n, by rw [setitem_eq_map, List.length_map], ⟨v, hv, hn⟩, ?_⟩
  intro j e he
  exact ⟨fun h => setitem_get_same _ _ _ _ _ he h, fun h => setitem_get_ne _ _ _ _ _ he h⟩

theorem emit_text (E : Env V) (c : Bool) (data d : Data V) (h : (emit E c data).1 = .text d) :
    d = data ∧ (emit E c data).2 = none := by
  rw [emit] at h ⊢
  split at h
  · rename_i hc
    rw [if_pos hc]
    split at h
    · simp at h
    · exact ⟨by simpa using h.symm, rfl⟩
  · simp at h

/-- **C73 fails** — the generic class writes the counts as they are: a tower with three
stations and `NTwInpSt` still equal to two is written so. -/
theorem C73_fails : ∃ (data d : Data Val) (n m : Nat),
    fixedFormat none data = .base ∧ (write exEnv .base true data).file = .text d ∧
    getitem d "NTwInpSt".toList = some (.num n) ∧ getitem d "TowProp".toList = some (.tab m 4) ∧ n ≠ m :=
  ⟨[line "---", line "tower", kv "NTwInpSt" (.num 2), kv "TowProp" (.tab 3 4)], _, 2, 3,
    by decide +kernel, rfl, by decide +kernel, by decide +kernel, by decide⟩

/-- **C73 partial** (AeroDyn blade) — what is written has in `NumBlNds` the number of lines of
`BldAeroNodes`, at least two, and is otherwise the object; what is kept in the object is what is
written. -/
theorem C73_adBlade_partial (E : Env V) (c : Bool) (data d : Data V)
    (h : (write E .adBlade c data).file = .text d) :
    ∃ n, Synced E data d "NumBlNds" "BldAeroNodes" n ∧ 2 ≤ n ∧ (write E .adBlade c data).data = d ∧
      (write E .adBlade c data).err = none := by
  simp only [write, baseWrite, sanity] at h ⊢
  cases hs : sanityADBlade E data with
  | mk d1 e1 =>
    rw [hs] at h
    cases e1 with
    | some e => simp at h
    | none =>
      simp only at h ⊢
      obtain ⟨rfl, h2⟩ := emit_text _ _ _ _ h
      rw [sanityADBlade] at hs
      split at hs
      · simp at hs
      · rename_i d2 hsync
        obtain ⟨n, hn⟩ := synced_of _ _ _ _ _ hsync
        obtain ⟨_, ⟨v, hv, hr⟩, _⟩ := id hn
        rw [hv] at hs
        simp only [Option.bind_some, hr] at hs
        split at hs
        · simp at hs
        · rename_i hlt
          simp only [Prod.mk.injEq, and_true] at hs
          subst hs
          exact ⟨n, hn, by omega, rfl, h2⟩

/-- **C73 partial** (ElastoDyn blade) -/
theorem C73_edBlade_partial (E : Env V) (c : Bool) (data d : Data V)
    (h : (write E .edBlade c data).file = .text d) :
    ∃ n, Synced E data d "NBlInpSt" "BldProp" n ∧ (write E .edBlade c data).data = d ∧
      (write E .edBlade c data).err = none := by
  simp only [write, baseWrite, sanity] at h ⊢
  cases hs : sanityEDBlade E data with
  | mk d1 e1 =>
    rw [hs] at h
    cases e1 with
    | some e => simp at h
    | none =>
      simp only at h ⊢
      obtain ⟨rfl, h2⟩ := emit_text _ _ _ _ h
      rw [sanityEDBlade] at hs
      split at hs
      · simp at hs
      · rename_i d2 hsync
        obtain ⟨n, hn⟩ := synced_of _ _ _ _ _ hsync
        simp only [Prod.mk.injEq] at hs
        obtain ⟨rfl, _⟩ := hs
        exact ⟨n, hn, rfl, h2⟩

/-- **C73 partial** (polar with one table) -/
theorem C73_polar_one_partial (E : Env V) (c : Bool) (data d : Data V) (v : V)
    (hv : getitem data "NumTabs".toList = some v) (h1 : E.int v = some 1)
    (h : (write E .adPolar c data).file = .text d) :
    ∃ n, Synced E data d "NumAlf" "AFCoeff" n ∧ (write E .adPolar c data).data = d ∧
      (write E .adPolar c data).err = none := by
  simp only [write, hv, h1, baseWrite, sanity] at h ⊢
  cases hs : sanityADPolar E data with
  | mk d1 e1 =>
    rw [hs] at h
    cases e1 with
    | some e => simp at h
    | none =>
      simp only at h ⊢
      obtain ⟨rfl, h2⟩ := emit_text _ _ _ _ h
      simp only [sanityADPolar, hv, h1] at hs
      obtain ⟨n, hn⟩ := synced_of _ _ _ _ _ hs
      exact ⟨n, hn, rfl, h2⟩

/-- what the write of a polar with several tables does, step by step -/
theorem polar_steps (E : Env V) (c : Bool) (data d : Data V) (v : V) (n : Nat)
    (hv : getitem data "NumTabs".toList = some v) (hn : E.int v = some n) (h1 : n ≠ 1)
    (h : (write E .adPolar c data).file = .text d) :
    ∃ d1, syncTabs E data (List.range n) = (d1, none) ∧ d = stripAll d1 n ∧
      (write E .adPolar c data).data = d1 ∧ (write E .adPolar c data).err = none := by
  have hw : write E .adPolar c data = polarWrite E c data n := by
    simp only [write, hv, hn]
  have hsan : sanityADPolar E data = syncTabs E data (List.range n) := by
    simp only [sanityADPolar, hv, hn]
  rw [hw] at h ⊢
  simp only [polarWrite, hsan] at h ⊢
  cases hs : syncTabs E data (List.range n) with
  | mk d1 e1 =>
    rw [hs] at h
    cases e1 with
    | some e => simp at h
    | none =>
      simp only at h ⊢
      cases he : emit E c (stripAll d1 n) with
      | mk f e2 =>
        rw [he] at h
        have hf : f = .text d := by
          cases e2 <;> exact h
        have ht := emit_text E c (stripAll d1 n) d (by rw [he]; exact hf)
        rw [he] at ht
        obtain ⟨rfl, rfl⟩ := ht
        exact ⟨d1, rfl, rfl, restore_stripAll d1 n, rfl⟩

/-- **C73 partial** (polar with several tables) — the count `NumAlf_k` written is the number of lines of
the table `AFCoeff_k`, for every table; every other item is written with its value. -/
theorem C73_polar_partial (E : Env V) (c : Bool) (data d : Data V) (v : V) (n : Nat)
    (hv : getitem data "NumTabs".toList = some v) (hn : E.int v = some n) (h1 : n ≠ 1)
    (h : (write E .adPolar c data).file = .text d) :
    (∀ k, 1 ≤ k → k ≤ n → ∃ t m, getitem data ("AFCoeff_".toList ++ Nat.toDigits 10 k) = some t ∧
      E.rows t = some m ∧
      ∀ (j : Nat) (e : Entry V), data[j]? = some e → SameKey e.label ("NumAlf_".toList ++ Nat.toDigits 10 k) →
        (d[j]?).map Entry.value = some (E.nat m)) ∧
    (∀ (j : Nat) (e : Entry V), data[j]? = some e →
      (∀ k, 1 ≤ k → k ≤ n → ¬ SameKey e.label ("NumAlf_".toList ++ Nat.toDigits 10 k)) →
        (d[j]?).map Entry.value = some e.value) := by
  obtain ⟨d1, hs, rfl, _, _⟩ := polar_steps E c data d v n hv hn h1 h
  obtain ⟨_, h2, h3⟩ := syncTabs_ok E _ List.nodup_range data d1 hs
  have hA : ∀ k, 1 ≤ k → "AFCoeff_".toList ++ Nat.toDigits 10 k = "AFCoeff".toList ++ offset (k - 1) := by
    intro k hk
    rw [offset, show k - 1 + 1 = k by omega]
    rfl
  have hN : ∀ k, 1 ≤ k → "NumAlf_".toList ++ Nat.toDigits 10 k = "NumAlf".toList ++ offset (k - 1) := by
    intro k hk
    rw [offset, show k - 1 + 1 = k by omega]
    rfl
  refine ⟨?_, ?_⟩
  · intro k hk hkn
    obtain ⟨t, m, ht, hm, hset⟩ := h2 (k - 1) (by rw [List.mem_range]; omega)
    refine ⟨t, m, by rw [hA k hk]; exact ht, hm, ?_⟩
    intro j e he hl
    rw [SameKey, hN k hk] at hl
    obtain ⟨l, hl'⟩ := stripAll_rest d1 n j _ (hset j e he hl)
    rw [hl']
    rfl
  · intro j e he hno
    have hd1 := h3 j e he (by
      intro i hi hl
      rw [List.mem_range] at hi
      refine hno (i + 1) (by omega) (by omega) ?_
      rw [SameKey, hN (i + 1) (by omega), Nat.add_sub_cancel]
      exact hl)
    obtain ⟨l, hl'⟩ := stripAll_rest d1 n j _ hd1
    rw [hl']
    rfl

section Example
/-- an AeroDyn blade whose table has three lines while the count says seven -/
def exBlade : Data Val := [line "---", line "blade", kv "NumBlNds" (.num 7), kv "BldAeroNodes" (.tab 3 7)]

example : write exEnv .adBlade true exBlade =
    ⟨[line "---", line "blade", kv "NumBlNds" (.num 3), kv "BldAeroNodes" (.tab 3 7)],
     .text [line "---", line "blade", kv "NumBlNds" (.num 3), kv "BldAeroNodes" (.tab 3 7)], none⟩ := by
  decide +kernel

/-- a polar with two tables -/
def exPolar : Data Val :=
  [line "! polar", kv "InterpOrd" (.num 1), kv "NumCoords" (.num 0), kv "NumTabs" (.num 2),
   kv "Re_1" (.num 5), kv "NumAlf_1" (.num 0), kv "AFCoeff_1" (.tab 3 4),
   kv "Re_2" (.num 6), kv "NumAlf_2" (.num 0), kv "AFCoeff_2" (.tab 4 4)]

example : write exEnv .adPolar true exPolar =
    ⟨[line "! polar", kv "InterpOrd" (.num 1), kv "NumCoords" (.num 0), kv "NumTabs" (.num 2),
      kv "Re_1" (.num 5), kv "NumAlf_1" (.num 3), kv "AFCoeff_1" (.tab 3 4),
      kv "Re_2" (.num 6), kv "NumAlf_2" (.num 4), kv "AFCoeff_2" (.tab 4 4)],
     .text [line "! polar", kv "InterpOrd" (.num 1), kv "NumCoords" (.num 0), kv "NumTabs" (.num 2),
      kv "Re" (.num 5), kv "NumAlf" (.num 3), kv "AFCoeff" (.tab 3 4),
      kv "Re" (.num 6), kv "NumAlf" (.num 4), kv "AFCoeff" (.tab 4 4)], none⟩ := by
  decide +kernel

/-- an ElastoDyn blade -/
def exEDBlade : Data Val :=
  [line "---", line "blade", kv "NBlInpSt" (.num 7), kv "BldProp" (.tab 3 6)] ++
    coeffNames.map (fun s => (⟨s, .num 1, false, [], 0⟩ : Entry Val))

example : (write exEnv .edBlade true exEDBlade).file =
    .text ([line "---", line "blade", kv "NBlInpSt" (.num 3), kv "BldProp" (.tab 3 6)] ++
      coeffNames.map (fun s => (⟨s, .num 1, false, [], 0⟩ : Entry Val))) := by
  decide +kernel
end Example

/-! ## C74 — the names in the file of a polar with several tables -/

/-- the keys of an airfoil table, as the AeroDyn documentation names them -/
def airfoilKeys : List Str :=
  ["Re", "Ctrl", "UserProp", "alpha0", "alpha1", "alpha2", "eta_e", "C_nalpha", "T_f0", "T_V0", "T_p",
   "T_VL", "b1", "b2", "b5", "A1", "A2", "A5", "S1", "S2", "S3", "S4", "Cn1", "Cn2", "St_sh", "Cd0", "Cm0",
   "k0", "k1", "k2", "k3", "k1_hat", "x_cp_bar", "UACutout", "filtCutOff", "InclUAdata", "NumAlf",
   "AFCoeff"].map String.toList

/-- **C49 fails** (keys) — when the file cannot be opened, or its text cannot be made, the keys of the object
have lost their table number: `Re_1` can no longer be read. -/
theorem C49_keys_fails : ∃ (data : Data Val) (v : Val),
    getitem data "Re_1".toList = some v ∧
    (write exEnv .adPolar false data).err = some .os ∧
    getitem (write exEnv .adPolar false data).data "Re_1".toList = none ∧
    (∃ data', data' = data ++ [kv "Bad" (.num 0)] ∧
      (write exEnv .adPolar true data').err = some .other ∧
      getitem (write exEnv .adPolar true data').data "Re_2".toList = none) :=
  ⟨exPolar, .num 5, by decide +kernel, by decide +kernel, by decide +kernel, _, rfl, by decide +kernel,
    by decide +kernel⟩

/-- **C74** — when a polar with several tables was written, the object has the same items under
the same keys (the counts may have changed, see C73); the text was made of the same items, where the
first item called `key_k`, for a table key and a table number, is called `key`, and every other item
keeps its name. -/
theorem C74_names (E : Env V) (c : Bool) (data d : Data V) (v : V) (n : Nat)
    (hv : getitem data "NumTabs".toList = some v) (hn : E.int v = some n) (h1 : n ≠ 1)
    (h : (write E .adPolar c data).file = .text d) :
    (write E .adPolar c data).data.map Entry.label = data.map Entry.label ∧
    d.length = data.length ∧
    (∀ k key, 1 ≤ k → k ≤ n → key ∈ airfoilKeys → ∀ (j : Nat) (e : Entry V), 0 < j → data[j]? = some e →
      SameKey e.label (key ++ '_' :: Nat.toDigits 10 k) →
      (∀ (i : Nat) (e' : Entry V), i < j → data[i]? = some e' →
        ¬ SameKey e'.label (key ++ '_' :: Nat.toDigits 10 k)) →
      (d[j]?).map Entry.label = some key) ∧
    (∀ (j : Nat) (e : Entry V), data[j]? = some e →
      (∀ k key, 1 ≤ k → k ≤ n → key ∈ airfoilKeys → ¬ SameKey e.label (key ++ '_' :: Nat.toDigits 10 k)) →
      (d[j]?).map Entry.label = some e.label) := by
  obtain ⟨d1, hs, rfl, hout, _⟩ := polar_steps E c data d v n hv hn h1 h
  obtain ⟨hlen, h2, h3⟩ := syncTabs_ok E _ List.nodup_range data d1 hs
  -- the counts do not change the labels
  have hlab : ∀ (j : Nat) (e : Entry V), data[j]? = some e → ∃ w, d1[j]? = some { e with value := w } := by
    intro j e he
    by_cases hq : ∃ i ∈ List.range n, lower e.label = lower ("NumAlf".toList ++ offset i)
    · obtain ⟨i, hi, hl⟩ := hq
      obtain ⟨_, m, _, _, hset⟩ := h2 i hi
      exact ⟨_, hset j e he hl⟩
    · exact ⟨e.value, h3 j e he (fun i hi hl => hq ⟨i, hi, hl⟩)⟩
  have hback : ∀ (j : Nat) (e : Entry V), d1[j]? = some e → ∃ e0, data[j]? = some e0 ∧ e0.label = e.label := by
    intro j e he
    have hlt : j < data.length := by
      have := (List.getElem?_eq_some_iff.1 he).1; omega
    obtain ⟨w, hw⟩ := hlab j data[j] (List.getElem?_eq_getElem hlt)
    rw [he] at hw
    simp only [Option.some.injEq] at hw
    exact ⟨data[j], List.getElem?_eq_getElem hlt, by rw [hw]⟩
  refine ⟨?_, ?_, ?_, ?_⟩
  · rw [hout]
    apply List.ext_getElem?
    intro j
    rw [List.getElem?_map, List.getElem?_map]
    cases hj : data[j]? with
    | none =>
      have : d1[j]? = none := by
        rw [List.getElem?_eq_none_iff] at hj ⊢; omega
      rw [this]
    | some e =>
      obtain ⟨w, hw⟩ := hlab j e hj
      rw [hw]; rfl
  · rw [stripAll_length, hlen]
  · intro k key hk hkn hkey j e hj he hl hfirst
    have hoff : key ++ '_' :: Nat.toDigits 10 k = key ++ offset (k - 1) := by
      rw [offset, show k - 1 + 1 = k by omega]
    rw [hoff] at hl hfirst
    obtain ⟨w, hw⟩ := hlab j e he
    have hid : getIDSafe d1 (key ++ offset (k - 1)) = some j := by
      refine (getIDSafe_iff ..).2 ⟨⟨_, hw, hl⟩, ?_⟩
      intro i e' hi he'
      obtain ⟨e0, he0, hle⟩ := hback i e' he'
      rw [← hle]
      exact hfirst i e0 hi he0
    have := (stripFold_get _ (stripJobs_isJob n) (stripJobs_nodup n) d1 j _ hw).1 (key, offset (k - 1))
      (mem_stripJobs n (k - 1) key (by omega) hkey) hid hj
    rw [stripAll, this]
    rfl
  · intro j e he hno
    obtain ⟨w, hw⟩ := hlab j e he
    have := (stripFold_get _ (stripJobs_isJob n) (stripJobs_nodup n) d1 j _ hw).2 (by
      intro p hp hg _
      simp only [stripJobs, List.mem_flatMap, List.mem_range, List.mem_map] at hp
      obtain ⟨i, hi, a, ha, rfl⟩ := hp
      obtain ⟨⟨e1, he1, hl1⟩, _⟩ := (getIDSafe_iff ..).1 hg
      rw [hw] at he1
      simp only [Option.some.injEq] at he1
      subst he1
      exact hno (i + 1) a (by omega) (by omega) ha hl1)
    rw [stripAll, this]
    rfl

example : getitem exPolar "NumTabs".toList = some (.num 2) ∧
    (match (write exEnv .adPolar true exPolar).file with
      | .text d => (d[4]?).map Entry.label
      | _ => none) = some "Re".toList := by decide +kernel

/-! ## C75 — reading another file into a `FASTInputFile` -/

/-- **C75 fails** — an object which held an AeroDyn blade keeps its class when it reads another file:
it can then not be written (`KeyError`), while a new object for that file is written. -/
theorem C75_fails : ∃ p q : Parsed Val,
    (((Wrap.open_ p).read q).write exEnv true).err = some .key ∧
    (((Wrap.open_ p).read q).write exEnv true).file = .untouched ∧
    ((Wrap.open_ q).write exEnv true).err = none ∧
    ((Wrap.open_ q).write exEnv true).file = .text q.data :=
  ⟨⟨exBlade, none⟩, ⟨[line "---", line "main file", kv "TMax" (.num 60)], none⟩,
    by decide +kernel, by decide +kernel, by decide +kernel, by decide +kernel⟩

/-- **C75 partial** — when the object held nothing, or a file of the same class, it behaves as a new
object for the file: same class, same items, same effect of `write`. -/
theorem C75_partial (E : Env V) (c : Bool) (p q : Parsed V)
    (h : p.data = [] ∨ fixedFormat p.module_ p.data = fixedFormat q.module_ q.data) :
    ((Wrap.open_ p).read q).cls = (Wrap.open_ q).cls ∧
    ((Wrap.open_ p).read q).cont = (Wrap.open_ q).cont ∧
    ((Wrap.open_ p).read q).write E c = (Wrap.open_ q).write E c := by
  have hc : ((Wrap.open_ p).read q).cls = (Wrap.open_ q).cls := by
    rcases h with h | h
    · simp [Wrap.read, Wrap.open_, Wrap.fixed, Wrap.cls, h]
    · by_cases hp : 0 < p.data.length
      · by_cases hq : 0 < q.data.length
        · simp only [Wrap.read, Wrap.open_, Wrap.fixed, Wrap.cls, gt_iff_lt, if_pos hp, if_pos hq,
            Option.getD_some]
          exact h
        · have hq' : q.data = [] := by
            cases hd : q.data with
            | nil => rfl
            | cons a l => rw [hd] at hq; simp at hq
          have hb : fixedFormat q.module_ q.data = .base := by simp [fixedFormat, hq', keys]
          simp only [Wrap.read, Wrap.open_, Wrap.fixed, Wrap.cls, gt_iff_lt, if_pos hp, if_neg hq,
            Option.getD_some, Option.getD_none]
          rw [h, hb]
      · simp [Wrap.read, Wrap.open_, Wrap.fixed, Wrap.cls, hp]
  refine ⟨hc, rfl, ?_⟩
  simp only [Wrap.write, hc]
  rfl

/-- the class used is the one of the first file read which had items, whatever is read afterwards -/
theorem C75_class_stays (p : Parsed V) (qs : List (Parsed V)) (h : p.data ≠ []) :
    (qs.foldl Wrap.read (Wrap.open_ p)).cls = fixedFormat p.module_ p.data := by
  have hp : 0 < p.data.length := List.length_pos_iff.2 h
  have hfix : ∀ (w : Wrap V) (k : Kind), w.fixed.kind = some k → ∀ qs : List (Parsed V),
      (qs.foldl Wrap.read w).fixed.kind = some k := by
    intro w k hk qs
    induction qs generalizing w with
    | nil => exact hk
    | cons q qs ih =>
      rw [List.foldl_cons]
      apply ih
      simp only [Wrap.read, Wrap.fixed] at hk ⊢
      rw [hk]
  have h0 : (Wrap.open_ p).fixed.kind = some (fixedFormat p.module_ p.data) := by
    simp only [Wrap.open_, Wrap.fixed, gt_iff_lt, if_pos hp]
  rw [Wrap.cls, hfix _ _ h0 qs]
  rfl

example : fixedFormat none exBlade = .adBlade ∧ fixedFormat none exPolar = .adPolar ∧
    fixedFormat none exEDBlade = .edBlade ∧ exBlade ≠ [] := by
  refine ⟨by decide +kernel, by decide +kernel, by decide +kernel, by decide⟩

/-! ## C76 — an object made by a dedicated class gives the items of the file -/

/-- **C76 fails** — `EDBladeFile(filename)` replaces the second item by a text: `keys` and every access
but to the first item raise `TypeError`. -/
theorem C76_fails (data : Data V) (lines : List Str) (ds : List (Item V))
    (h : openEDBlade data lines = .ok ds) :
    keyList ds = .error .type ∧
    ∀ (d0 : Entry V) (key : Str), data[0]? = some d0 → ¬ SameKey d0.label key → getItem ds key = .error .type := by
  rw [openEDBlade] at h
  split at h
  · simp at h
  · rename_i l hl
    split at h
    · simp at h
    · rename_i hlen
      match data, hlen with
      | a :: b :: r, _ =>
        simp only [List.map_cons, List.set_cons_succ, List.set_cons_zero, Except.ok.injEq] at h
        subst h
        refine ⟨rfl, ?_⟩
        intro d0 key h0 hne
        simp only [List.getElem?_cons_zero, Option.some.injEq] at h0
        subst h0
        have : sameLabel key a = false := by
          simp only [sameLabel, beq_eq_false_iff_ne]; exact hne
        simp [getItem, findItem, this]
      | [], h => simp at h
      | [_], h => simp at h

/-- such files exist: the items are there, and cannot be read -/
example : ∃ ds, openEDBlade exEDBlade ["---".toList, "blade".toList] = .ok ds ∧
    getitem exEDBlade "NBlInpSt".toList = some (.num 7) ∧
    getItem ds "NBlInpSt".toList = .error .type ∧ keyList ds = .error .type :=
  ⟨_, rfl, by decide +kernel, by decide +kernel, by decide +kernel⟩

/-- **C76 partial** — objects made by `ADBladeFile(filename)`, `ADPolarFile(filename)` and those
made through the wrapper give for every key the item of the file, `KeyError` when it has none, and
all its keys. -/
theorem C76_partial (data : Data V) (ds : List (Item V)) (h : openOther data = .ok ds) :
    keyList ds = .ok (keys data) ∧
    (∀ key v, getItem ds key = .ok v ↔ getitem data key = some v) ∧
    (∀ key, getItem ds key = .error .key ↔ ∀ e ∈ data, ¬ SameKey e.label key) := by
  simp only [openOther, Except.ok.injEq] at h
  subst h
  have hk : keyList (data.map Item.entry) = .ok (keys data) := by
    induction data with
    | nil => rfl
    | cons d ds ih =>
      rw [List.map_cons, keyList, ih]
      cases hc : d.isComment <;> simp [keys, hc]
  have hg : ∀ key, getItem (data.map Item.entry) key =
      match lookup key data with
      | some v => .ok v
      | none => .error .key := by
    intro key
    clear hk
    induction data with
    | nil => rfl
    | cons d ds ih =>
      rw [List.map_cons, getItem, findItem, lookup]
      by_cases hl : lower d.label = lower key
      · simp [sameLabel, hl]
      · have : sameLabel key d = false := by simp [sameLabel, hl]
        rw [this, if_neg hl, ← ih]
        rfl
  refine ⟨hk, ?_, ?_⟩
  · intro key v
    rw [hg, getitem_eq_lookup]
    cases lookup key data <;> simp
  · intro key
    rw [hg]
    simp only [SameKey]
    rw [← lookup_none_iff]
    cases lookup key data <;> simp

example : openOther exBlade = .ok (exBlade.map Item.entry) ∧
    getItem (exBlade.map Item.entry) "numblnds".toList = .ok (.num 7) := by decide +kernel

/-! ## C77 — the comment of a file -/

/-- **C77 fails** — assigning the comment of a `FASTInputFile` raises, whatever the file and the text,
and changes nothing. -/
theorem C77_fails (E : Env V) (w : Wrap V) (c : Str) :
    (w.setComment E c).2.isSome = true ∧ (w.setComment E c).1.cont = w.cont := by
  have hcont : w.fixed.cont = w.cont := by
    rw [Wrap.fixed]
    split
    · rfl
    · split <;> rfl
  rw [Wrap.setComment]
  split <;> exact ⟨rfl, hcont⟩

/-- **C77 fails** (polar) — the comment of a polar is never a text. -/
theorem C77_polar_fails (E : Env V) (data : Data V) (s : Str) : getComment E .adPolar data ≠ .text s := by
  simp [getComment]

/-- **C77 fails** (generic class) — the comment set on an object of the generic class is lost. -/
theorem C77_base_fails (E : Env V) (data : Data V) (c : Str) :
    setComment E .base data c = some data ∧ getComment E .base data = .text [] := by
  simp [setComment, iComment, putComment, getComment, textsAt, joinWith]

/-- **C77 fails** (several lines) — of a comment of several lines a blade keeps the first. -/
theorem C77_lines_fails : ∃ (data d : Data Val) (c : Str),
    setComment exEnv .adBlade data c = some d ∧ getComment exEnv .adBlade d ≠ .text c :=
  ⟨exBlade, [line "---", line "a", kv "NumBlNds" (.num 7), kv "BldAeroNodes" (.tab 3 7)], "a\nb".toList,
    by decide +kernel, by decide +kernel⟩

theorem splitOn_no (c : Str) (h : '\n' ∉ c) : splitOn '\n' c = [c] := by
  induction c with
  | nil => rfl
  | cons x c ih =>
    simp only [List.mem_cons, not_or] at h
    have := ih h.2
    rw [splitOn]
    rw [if_neg (by simpa using Ne.symm h.1), this]

/-- **C77 partial** — a comment of one line set on a blade is given back, and only the second line of
the file was changed. -/
theorem C77_partial (E : Env V) (k : Kind) (hk : k = .adBlade ∨ k = .edBlade) (data : Data V) (e : Entry V)
    (he : data[1]? = some e) (c : Str) (hc : '\n' ∉ c) (hE : E.text (E.str c) = some c) :
    ∃ d, setComment E k data c = some d ∧ getComment E k d = .text c ∧
      d = data.set 1 { e with value := E.str c } := by
  obtain ⟨hlt, hg⟩ := List.getElem?_eq_some_iff.1 he
  have hi : ∀ d : Data V, iComment E k d = some [1] := by
    intro d; rcases hk with rfl | rfl <;> rfl
  have hnp : k ≠ .adPolar := by rcases hk with rfl | rfl <;> decide
  have hmod : data.modify 1 (fun d => { d with value := E.str ([] ++ c) }) =
      data.set 1 { e with value := E.str c } := by
    apply List.ext_getElem?
    intro j
    rw [List.getElem?_modify, List.getElem?_set]
    by_cases hj : 1 = j
    · subst hj
      simp [hg, hlt]
    · simp [hj]
  refine ⟨data.set 1 { e with value := E.str c }, ?_, ?_, rfl⟩
  · rw [setComment, hi]
    simp only [splitOn_no c hc, List.zip_cons_cons, List.zip_nil_right, if_neg hnp, putComment, if_pos hlt, hmod]
  · have : getComment E k (data.set 1 { e with value := E.str c }) =
        match (iComment E k (data.set 1 { e with value := E.str c })).bind
          (textsAt E (data.set 1 { e with value := E.str c })) with
        | some ls => .text (joinWith ['\n'] ls)
        | none => .raised := by
      rcases hk with rfl | rfl <;> rfl
    rw [this, hi]
    have h1 : (data.set 1 { e with value := E.str c })[1]? = some { e with value := E.str c } := by
      simp [hlt]
    simp [textsAt, h1, hE, joinWith]

example : setComment exEnv .adBlade exBlade "new".toList =
    some [line "---", line "new", kv "NumBlNds" (.num 7), kv "BldAeroNodes" (.tab 3 7)] := by decide +kernel

/-! ## C78 — prototypes -/

/-- **C78 fails** — the prototype `ADBladeFile()` cannot be written. -/
theorem C78_fails (E : Env V) (none_ : V) (zeros : Nat → Nat → V) (h : E.rows (zeros 0 7) = some 0) (c : Bool) :
    (write E .adBlade c (protoADBlade E none_ zeros)).err = some .value ∧
    (write E .adBlade c (protoADBlade E none_ zeros)).file = .untouched := by
  have hg : getitem (protoADBlade E none_ zeros) "BldAeroNodes".toList = some (zeros 0 7) := rfl
  have hs : (sanityADBlade E (protoADBlade E none_ zeros)).2 = some .value := by
    rw [sanityADBlade, syncCount, hg]
    simp only [h, Option.bind_some]
    rfl
  simp only [write, baseWrite, sanity]
  cases hd : sanityADBlade E (protoADBlade E none_ zeros) with
  | mk d e =>
    rw [hd] at hs
    simp only at hs
    subst hs
    exact ⟨rfl, rfl⟩

example : exEnv.rows ((fun r c => Val.tab r c) 0 7) = some 0 := rfl

/-- **C78 fails** (polar) — in the prototype of a polar with two tables and unsteady data, the second
table has no item telling so. -/
theorem C78_polar_fails : ∃ data : Data Val,
    data = protoADPolar exEnv (.txt []) (fun b => .num b.toNat) .tab true 2 ∧
    getitem data "Re_2".toList ≠ none ∧ getitem data "alpha0_2".toList ≠ none ∧
    getitem data "InclUAdata_1".toList = none ∧ getitem data "InclUAdata_2".toList = none ∧
    (data.filter (fun e => e.label = "InclUAdata".toList)).length = 1 :=
  ⟨_, rfl, by decide +kernel, by decide +kernel, by decide +kernel, by decide +kernel, by decide +kernel⟩

theorem step_mono (none_ : V) (data : Data V) (op : Op V) (k : Str) (h : (getitem data k).isSome = true) :
    (getitem (step none_ data op) k).isSome = true := by
  have := C07_refines none_ data [op] k
  simp only [run, List.foldl_cons, List.foldl_nil] at this
  rw [this]
  cases op with
  | set q v => simp only [specStep]; split <;> simp [h]
  | addKeyVal q v s => simp only [specStep]; split <;> simp [h]
  | addComment c =>
    simp only [specStep]
    split
    · split <;> rfl
    · exact h
  | addTable l t n =>
    simp only [specStep]
    split
    · split <;> rfl
    · exact h

theorem run_mono (none_ : V) (data : Data V) (ops : List (Op V)) (k : Str) (h : (getitem data k).isSome = true) :
    (getitem (run none_ data ops) k).isSome = true := by
  induction ops generalizing data with
  | nil => exact h
  | cons op ops ih => exact ih _ (step_mono none_ data op k h)

/-- the key an operation brings -/
def brings : Op V → Option Str
  | .addKeyVal k _ _ => some k
  | .addTable l _ _ => some l
  | _ => none

theorem run_brings (none_ : V) (data : Data V) (ops : List (Op V)) (op : Op V) (hop : op ∈ ops) (k : Str)
    (hk : brings op = some k) : (getitem (run none_ data ops) k).isSome = true := by
  obtain ⟨a, b, rfl⟩ := List.append_of_mem hop
  rw [run, List.foldl_append, List.foldl_cons]
  apply run_mono
  have := C07_refines none_ (List.foldl (step none_) data a) [op] k
  simp only [run, List.foldl_cons, List.foldl_nil] at this
  rw [this]
  cases op with
  | set q v => simp [brings] at hk
  | addComment c => simp [brings] at hk
  | addKeyVal q v s =>
    simp only [brings, Option.some.injEq] at hk
    subst hk
    simp [specStep, SameKey]
  | addTable l t n =>
    simp only [brings, Option.some.injEq] at hk
    subst hk
    simp only [specStep, SameKey, if_true]
    split <;> rfl

/-- the keys of the unsteady data -/
def unsteadyKeys : List Str :=
  ["alpha0", "alpha1", "alpha2", "eta_e", "C_nalpha", "T_f0", "T_V0", "T_p", "T_VL", "b1", "b2", "b5", "A1", "A2",
   "A5", "S1", "S2", "S3", "S4", "Cn1", "Cn2", "St_sh", "Cd0", "Cm0", "k0", "k1", "k2", "k3", "k1_hat", "x_cp_bar",
   "UACutout", "filtCutOff"].map String.toList

/-- **C78 partial** — the prototype of a polar with any number of tables (more than one) has, for every
table `k`, `Re_k`, `Ctrl_k`, `NumAlf_k`, `AFCoeff_k`; with unsteady data all of their keys `…_k`; without,
`InclUAdata_k`.  Missing: `InclUAdata_k` with unsteady data (see `C78_polar_fails`). -/
theorem C78_partial (E : Env V) (none_ : V) (bool : Bool → V) (zeros : Nat → Nat → V) (hasUA : Bool) (n k : Nat)
    (hn : n ≠ 1) (h1 : 1 ≤ k) (hk : k ≤ n) (key : Str)
    (hkey : key ∈ ["Re", "Ctrl", "NumAlf", "AFCoeff"].map String.toList ∨
      (hasUA = true ∧ key ∈ unsteadyKeys) ∨ (hasUA = false ∧ key = "InclUAdata".toList)) :
    (getitem (protoADPolar E none_ bool zeros hasUA n) (key ++ '_' :: Nat.toDigits 10 k)).isSome = true := by
  have hoff : key ++ '_' :: Nat.toDigits 10 k = key ++ offset (k - 1) := by
    rw [offset, show k - 1 + 1 = k by omega]
  rw [hoff]
  have main : ∀ op ∈ protoTab none_ bool zeros hasUA (offset (k - 1)), brings op = some (key ++ offset (k - 1)) →
      (getitem (protoADPolar E none_ bool zeros hasUA n) (key ++ offset (k - 1))).isSome = true := by
    intro op hop hb
    refine run_brings none_ [] _ op ?_ _ hb
    rw [List.mem_append]
    right
    rw [List.mem_flatMap]
    refine ⟨k - 1, by rw [List.mem_range]; omega, ?_⟩
    rw [if_neg hn]
    exact hop
  rcases hkey with h | ⟨rfl, h⟩ | ⟨rfl, rfl⟩
  · simp only [List.map_cons, List.map_nil, List.mem_cons, List.not_mem_nil, or_false] at h
    rcases h with rfl | rfl | rfl | rfl
    · exact main (.addKeyVal ("Re".toList ++ offset (k - 1)) none_ none)
        (List.mem_append_left _ (List.mem_append_left _ (.tail _ (.tail _ (.tail _ (.head _)))))) rfl
    · exact main (.addKeyVal ("Ctrl".toList ++ offset (k - 1)) none_ none)
        (List.mem_append_left _ (List.mem_append_left _ (.tail _ (.tail _ (.tail _ (.tail _ (.head _))))))) rfl
    · exact main (.addKeyVal ("NumAlf".toList ++ offset (k - 1)) none_ none)
        (List.mem_append_right _ (.tail _ (.head _))) rfl
    · exact main (.addTable ("AFCoeff".toList ++ offset (k - 1)) (zeros 0 4) 2)
        (List.mem_append_right _ (.tail _ (.tail _ (.head _)))) rfl
  · refine main (.addKeyVal (key ++ offset (k - 1)) none_ none) ?_ rfl
    rw [protoTab, if_pos rfl]
    simp only [List.mem_append]
    left; right; left; right
    exact List.mem_map.2 ⟨key, h, rfl⟩
  · refine main (.addKeyVal ("InclUAdata".toList ++ offset (k - 1)) (bool false) none) ?_ rfl
    exact List.mem_append_left _ (List.mem_append_right _ (.head _))

/-- the prototype of a polar with one table is written, with no table line announced, and has all keys of
a table -/
theorem C78_one_partial : ∀ ua : Bool, ∃ out : Out Val,
    out = write exEnv .adPolar true (protoADPolar exEnv (.txt []) (fun b => .num b.toNat) .tab ua 1) ∧
    out.file = .text out.data ∧ out.err = none ∧
    getitem out.data "NumAlf".toList = some (.num 0) ∧
    getitem out.data "InclUAdata".toList = some (.num ua.toNat) ∧
    ∀ key ∈ airfoilKeys, key ≠ "UserProp".toList → (ua = true ∨ key ∉ unsteadyKeys) →
      (getitem out.data key).isSome = true := by
  intro ua
  cases ua with
  | true => exact ⟨_, rfl, by decide +kernel, by decide +kernel, by decide +kernel, by decide +kernel, by decide +kernel⟩
  | false => exact ⟨_, rfl, by decide +kernel, by decide +kernel, by decide +kernel, by decide +kernel, by decide +kernel⟩

end Verif.FastTypes
