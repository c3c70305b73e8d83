import Verif.Spec.MannTurb
import Verif.Props.Mann
import Verif.Props.TurbSim
import Verif.Lemmas.FastLine
import Verif.Lemmas.HawcAe
import Verif.Lemmas.DeckRead
import Mathlib.Tactic
/-!
# Lemmas on a converted box
-/
namespace Verif.MannTurb
open Verif.Py Verif.Mann
open Verif.TurbSim (Box Field midIndex)
open Verif.DeckRead (bind_ok ok_bind)

theorem planes_holds (nt ny nz : Nat) (f : Nat → Nat → Nat → ℚ) : Holds (planes nt ny nz f) nt ny nz f := by
  refine ⟨⟨by simp [planes], ?_⟩, ?_⟩
  · intro p hp
    obtain ⟨it, -, rfl⟩ := List.mem_map.1 hp
    refine ⟨by simp, ?_⟩
    intro r hr
    obtain ⟨iy, -, rfl⟩ := List.mem_map.1 hr
    simp
  · intro it iy iz h1 h2 h3
    refine ⟨_, _, by simp [planes, h1]; rfl, by simp [h2]; rfl, by simp [h3]⟩

theorem fromTurbSim_eq (b : Box) (k : Nat) (c : Option ℚ) (all : Bool) :
    fromTurbSim b k c all = planes b.nt b.ny b.nz (fun it iy iz => b.u k it iy iz - if k = 0 then removed b c all iy iz else 0) := by
  unfold fromTurbSim
  by_cases hk : k = 0
  · subst hk
    rw [if_pos rfl]
    simp only [if_pos]
    cases all with
    | true =>
      rw [if_pos rfl]
      congr 1
      funext it iy iz
      simp [removed, timeMean, mean, TurbSim.series]
    | false =>
      rw [if_neg (by simp)]
      cases c with
      | none => simp [removed]
      | some c => simp [removed]
  · rw [if_neg hk]
    simp [hk]

theorem readPlane_rd (st : Store ℚ) (rd : ℚ → ℚ) (hst : Keeps st rd) (ny nz : Nat) (rows : List (List ℚ))
    (hl : rows.length = ny) (hr : ∀ r ∈ rows, r.length = nz) (rest : Bytes) :
    readPlane st ny nz ((rows.flatten).flatMap st.enc ++ rest) = .ok (rows.map (List.map rd)) ∧
    ((rows.flatten).flatMap st.enc ++ rest).drop (4 * ny * nz) = rest := by
  have h4 : ∀ x, (st.enc x).length = 4 := fun x => (hst x).1
  have hfl : rows.flatten.length = ny * nz := by
    rw [flatten_length_const nz rows hr, hl, Nat.mul_comm]
  have hlen : ((rows.flatten).flatMap st.enc).length = 4 * ny * nz := by
    rw [flatMap_enc_length st h4, hfl, Nat.mul_assoc]
  refine ⟨?_, List.drop_left' hlen⟩
  unfold readPlane
  rw [List.take_left' hlen]
  simp only
  rw [if_pos hlen]
  have h1 : rowsOf 4 (ny * nz) ((rows.flatten).flatMap st.enc) = rows.flatten.map st.enc := by
    have := rowsOf_flatten 4 (rows.flatten.map st.enc) (by
      intro b hb; obtain ⟨x, _, rfl⟩ := List.mem_map.1 hb; exact h4 x) []
    rw [List.length_map, hfl, List.append_nil] at this
    rw [List.flatMap_def]; exact this
  have h2 : (rows.flatten.map st.enc).map st.dec = (rows.map (List.map rd)).flatten := by
    rw [List.map_map, ← List.map_flatten]
    exact List.map_congr_left (fun x _ => (hst x).2)
  have h3 := rowsOf_flatten nz (rows.map (List.map rd)) (by
    intro r hr'; obtain ⟨x, hx, rfl⟩ := List.mem_map.1 hr'; simpa using hr x hx) []
  rw [List.append_nil, List.length_map, hl] at h3
  rw [h1, h2, h3]

theorem readPlanes_rd (st : Store ℚ) (rd : ℚ → ℚ) (hst : Keeps st rd) (ny nz : Nat) (field : List (List (List ℚ)))
    (h : ∀ plane ∈ field, plane.length = ny ∧ ∀ row ∈ plane, row.length = nz) (rest : Bytes) :
    readPlanes st ny nz field.length (write st field ++ rest) = .ok (field.map (List.map (List.map rd))) := by
  induction field with
  | nil => rfl
  | cons p ps ih =>
    obtain ⟨h1, h2⟩ := h p (List.mem_cons_self ..)
    obtain ⟨g1, g2⟩ := readPlane_rd st rd hst ny nz p.reverse (by simpa using h1)
      (by intro r hr; exact h2 r (List.mem_reverse.1 hr)) (write st ps ++ rest)
    rw [List.length_cons, write_cons, List.append_assoc]
    unfold readPlanes
    rw [g1]
    simp only
    rw [g2, ih (fun x hx => h x (List.mem_cons_of_mem _ hx)), List.map_reverse, List.reverse_reverse]
    rfl

theorem planes_map (nt ny nz : Nat) (f : Nat → Nat → Nat → ℚ) (rd : ℚ → ℚ) :
    (planes nt ny nz f).map (List.map (List.map rd)) = planes nt ny nz (fun it iy iz => rd (f it iy iz)) := by
  simp [planes, Function.comp_def]

theorem toDigits_isDigit (n : Nat) : Nat.toDigits 10 n ≠ [] ∧ ∀ c ∈ Nat.toDigits 10 n, c.isDigit = true :=
  ⟨by
    intro h
    have := congrArg List.length h
    simp at this, fun c hc => FastLine.toDigits_digit n c hc⟩

theorem takeWhile_app_ne {α : Type} (p : α → Bool) (a b : List α) (ha : ∀ x ∈ a, p x = true) :
    (a ++ b).takeWhile p = a ++ b.takeWhile p := by
  induction a with
  | nil => rfl
  | cons x t ih => rw [List.cons_append, List.takeWhile_cons, if_pos (ha x (by simp)), ih (fun y hy => ha y (by simp [hy]))]; rfl

theorem afterSlash_app (a b : Str) (h : '/' ∉ b) : Detect.afterSlash (a ++ b) = Detect.afterSlash a ++ b := by
  unfold Detect.afterSlash
  rw [List.reverse_append, takeWhile_app_ne, List.reverse_append, List.reverse_reverse]
  intro x hx
  simp only [ne_eq, decide_eq_true_eq]
  rintro rfl
  exact h (List.mem_reverse.1 hx)

theorem afterSlash_none (a : Str) : '/' ∉ Detect.afterSlash a := by
  intro h
  unfold Detect.afterSlash at h
  have key : ∀ l : Str, '/' ∉ l.takeWhile (fun x => decide (x ≠ '/')) := by
    intro l
    induction l with
    | nil => simp
    | cons x t ih =>
      rw [List.takeWhile_cons]
      split
      · rename_i hx
        simp only [ne_eq, decide_eq_true_eq] at hx
        rw [List.mem_cons, not_or]
        exact ⟨fun e => hx e.symm, ih⟩
      · simp
  exact key _ (List.mem_reverse.1 h)

theorem afterSlash_idem (a : Str) : Detect.afterSlash (Detect.afterSlash a) = Detect.afterSlash a := by
  have := afterSlash_app [] (Detect.afterSlash a) (afterSlash_none a)
  simpa [Detect.afterSlash] using this

theorem splitextExt_letter (s : Str) (c : Char) (hs : '/' ∉ s) (hu : ∃ x ∈ s, x ≠ '.') (hc : c ≠ '.') (hc' : c ≠ '/') :
    Detect.splitextExt (s ++ ['.', c]) = ['.', c] := by
  have hb : Detect.afterSlash (s ++ ['.', c]) = s ++ ['.', c] := by
    have := afterSlash_app [] (s ++ ['.', c]) (by simp [hs, hc'.symm])
    simpa [Detect.afterSlash] using this
  unfold Detect.splitextExt
  rw [hb]
  have hr : (s ++ ['.', c]).reverse = c :: '.' :: s.reverse := by simp
  simp only [hr]
  rw [List.dropWhile_cons, if_pos (by simpa using hc), List.dropWhile_cons, if_neg (by simp)]
  simp only
  rw [if_pos, List.takeWhile_cons, if_pos (by simpa using hc), List.takeWhile_cons, if_neg (by simp)]
  · rfl
  · obtain ⟨x, hx, hn⟩ := hu
    rw [List.any_eq_true]
    exact ⟨x, List.mem_reverse.2 hx, by simpa using hn⟩

theorem slash_digits (n : Nat) : '/' ∉ Nat.toDigits 10 n := fun h => by
  have := (toDigits_isDigit n).2 _ h
  revert this
  decide

theorem inferDims_fileOf (base : Str) (b : Box) (c : Char) (hc : c ≠ '.') (hc' : c ≠ '/') :
    inferDims (fileOf base b c) = .ok (b.nt, b.ny, b.nz) := by
  have e : fileOf base b c = (base ++ (['_'] ++ (Nat.toDigits 10 b.nt ++ (['x'] ++ (Nat.toDigits 10 b.ny ++ (['x'] ++ (Nat.toDigits 10 b.nz ++ []))))))) ++ ['.', c] := by
    simp [fileOf]
  have hns : '/' ∉ ['_'] ++ (Nat.toDigits 10 b.nt ++ (['x'] ++ (Nat.toDigits 10 b.ny ++ (['x'] ++ (Nat.toDigits 10 b.nz ++ []))))) := by
    simp [slash_digits]
  have hstem : baseStem (fileOf base b c) = (Detect.afterSlash base ++ ['_']) ++ (Nat.toDigits 10 b.nt ++ (['x'] ++ (Nat.toDigits 10 b.ny ++ (['x'] ++ (Nat.toDigits 10 b.nz ++ []))))) := by
    unfold baseStem
    rw [e, List.append_assoc, afterSlash_app _ _ (by
      rw [List.mem_append]
      rintro (h | h)
      · exact hns h
      · simp [hc'.symm] at h), ← List.append_assoc]
    simp only
    rw [splitextExt_letter _ c (by
      rw [List.mem_append]
      rintro (h | h)
      · exact afterSlash_none _ h
      · exact hns h) ⟨'_', by simp, by decide⟩ hc hc']
    rw [List.take_left' (by simp; omega), List.append_assoc]
  rw [C22_last_three (fileOf base b c) (Detect.afterSlash base ++ ['_']) _ ['x'] _ ['x'] _ [] hstem (by simp)
    (toDigits_isDigit _) (toDigits_isDigit _) (toDigits_isDigit _) (by decide) (by decide) (by simp)]
  have h := fun n => Nat.ofDigitChars_toDigits (b := 10) (n := n) (by decide) (by decide)
  rw [h, h, h]

theorem showInt_nat (n : Nat) : FastLine.showInt (n : Int) = Nat.toDigits 10 n := by
  unfold FastLine.showInt
  simp

theorem sized_letter (base : Str) (b : Box) (c : Char) : sized base b ++ ['.', c] = fileOf base b c := by
  unfold sized fileOf
  simp [showInt_nat]

theorem read_component (st : Store ℚ) (rd : ℚ → ℚ) (hst : Keeps st rd) (fs : FS) (base : Str) (b : Box) (hb : NonEmpty b) (c : Char)
    (hc : c ≠ '.') (hc' : c ≠ '/') (f : Nat → Nat → Nat → ℚ) (hf : fs (fileOf base b c) = some (write st (planes b.nt b.ny b.nz f))) :
    Mann.read st fs (fileOf base b c) none = .ok (planes b.nt b.ny b.nz (fun it iy iz => rd (f it iy iz))) := by
  have hp := planes_holds b.nt b.ny b.nz f
  have hlen := write_length st (fun x => (hst x).1) _ _ _ _ hp.1
  have hne : write st (planes b.nt b.ny b.nz f) ≠ [] := by
    intro h
    rw [h] at hlen
    obtain ⟨h1, h2, h3⟩ := hb
    have : 0 < 4 * b.nt * b.ny * b.nz := by positivity
    simp at hlen
    omega
  unfold Mann.read
  rw [if_neg (by simp [fileOf]), hf]
  simp only
  rw [if_neg hne, inferDims_fileOf base b c hc hc']
  simp only
  have := readPlanes_rd st rd hst b.ny b.nz _ hp.1.2 []
  rw [hp.1.1, List.append_nil, planes_map] at this
  exact this

theorem fileOf_inj (base : Str) (b : Box) (c d : Char) (h : fileOf base b c = fileOf base b d) : c = d := by
  unfold fileOf at h
  have := List.append_cancel_left h
  simpa using this

theorem toMannBox_base (st : Store ℚ) (fs : FS) (b : Box) (filename : Option Str) (base : Str) (rc : Option ℚ) (all : Bool) :
    ∃ fs', toMannBox st fs b filename (some base) rc all = .ok fs' ∧
      (∀ n, n ≠ fileOf base b 'u' → n ≠ fileOf base b 'v' → n ≠ fileOf base b 'w' → fs' n = fs n) ∧
      fs' (fileOf base b 'u') = some (write st (fromTurbSim b 0 rc all)) ∧
      fs' (fileOf base b 'v') = some (write st (fromTurbSim b 1 none false)) ∧
      fs' (fileOf base b 'w') = some (write st (fromTurbSim b 2 none false)) := by
  refine ⟨_, rfl, ?_, ?_, ?_, ?_⟩
  · intro n h1 h2 h3
    show put (put (put fs (sized base b ++ ['.', 'u']) _) (sized base b ++ ['.', 'v']) _) (sized base b ++ ['.', 'w']) _ n = _
    simp only [sized_letter, put]
    rw [if_neg h3, if_neg h2, if_neg h1]
  · show put (put (put fs (sized base b ++ ['.', 'u']) _) (sized base b ++ ['.', 'v']) _) (sized base b ++ ['.', 'w']) _ _ = _
    simp only [sized_letter, put]
    rw [if_neg (fun h => absurd (fileOf_inj base b _ _ h) (by decide)), if_neg (fun h => absurd (fileOf_inj base b _ _ h) (by decide))]
    simp
  · show put (put (put fs (sized base b ++ ['.', 'u']) _) (sized base b ++ ['.', 'v']) _) (sized base b ++ ['.', 'w']) _ _ = _
    simp only [sized_letter, put]
    rw [if_neg (fun h => absurd (fileOf_inj base b _ _ h) (by decide))]
    simp
  · show put (put (put fs (sized base b ++ ['.', 'u']) _) (sized base b ++ ['.', 'v']) _) (sized base b ++ ['.', 'w']) _ _ = _
    simp only [sized_letter, put]
    simp

theorem saved (st : Store ℚ) (rd : ℚ → ℚ) (hst : Keeps st rd) (fs : FS) (b : Box) (hb : NonEmpty b) (filename : Option Str) (base : Str)
    (rc : Option ℚ) (all : Bool) : ∃ fs', toMannBox st fs b filename (some base) rc all = .ok fs' ∧
      (∀ n, n ≠ fileOf base b 'u' → n ≠ fileOf base b 'v' → n ≠ fileOf base b 'w' → fs' n = fs n) ∧
      Mann.read st fs' (fileOf base b 'u') none = .ok (planes b.nt b.ny b.nz (fun it iy iz => rd (b.u 0 it iy iz - removed b rc all iy iz))) ∧
      Mann.read st fs' (fileOf base b 'v') none = .ok (planes b.nt b.ny b.nz (fun it iy iz => rd (b.u 1 it iy iz))) ∧
      Mann.read st fs' (fileOf base b 'w') none = .ok (planes b.nt b.ny b.nz (fun it iy iz => rd (b.u 2 it iy iz))) := by
  obtain ⟨fs', h, ho, hu, hv, hw⟩ := toMannBox_base st fs b filename base rc all
  rw [fromTurbSim_eq] at hu hv hw
  simp only [if_pos, one_ne_zero, OfNat.ofNat_ne_zero, if_false, sub_zero] at hu hv hw
  exact ⟨fs', h, ho, read_component st rd hst fs' base b hb 'u' (by decide) (by decide) _ hu,
    read_component st rd hst fs' base b hb 'v' (by decide) (by decide) _ hv,
    read_component st rd hst fs' base b hb 'w' (by decide) (by decide) _ hw⟩

theorem fit_same (nt ny nz : Nat) (a : Arr) (h : a.Dims nt ny nz) :
    ∃ g, fit nt ny nz a = .ok g ∧ ∀ it iy iz, it < nt → iy < ny → iz < nz → g it iy iz = a.f it iy iz := by
  obtain ⟨h1, h2, h3⟩ := h
  unfold fit
  rw [if_pos ⟨.inl h1, .inl h2, .inl h3⟩]
  refine ⟨_, rfl, ?_⟩
  intro it iy iz g1 g2 g3
  have e1 : (if a.nt = 1 then 0 else it) = it := by split <;> omega
  have e2 : (if a.ny = 1 then 0 else iy) = iy := by split <;> omega
  have e3 : (if a.nz = 1 then 0 else iz) = iz := by split <;> omega
  simp only [e1, e2, e3]

theorem times (nt : Nat) (dx U : ℚ) (hx : dx ≠ 0) (hU : U ≠ 0) :
    arange 0 (dx / U * ((nt : ℚ) - 1 / 2)) (dx / U) = (List.range nt).map (fun i : Nat => (i : ℚ) * (dx / U)) := by
  have := arange_length 0 (dx / U) nt (div_ne_zero hx hU) (1 / 2) (by norm_num) (by norm_num)
  rw [zero_add] at this
  rw [show dx / U * ((nt : ℚ) - 1 / 2) = ((nt : ℚ) - 1 + 1 / 2) * (dx / U) by ring, this]
  simp

theorem midIndex_middle (c : List ℚ) (i : Nat) (h : midIndex c = some i) : Middle c i := by
  unfold midIndex at h
  cases hh : c.head? with
  | none => rw [hh] at h; cases h
  | some a =>
    cases hl : c.getLast? with
    | none => rw [hh, hl] at h; cases h
    | some e =>
      rw [hh, hl] at h
      obtain ⟨m, hm, hmin⟩ := argmin_spec _ i h
      rw [List.getElem?_map, Option.map_eq_some_iff] at hm
      obtain ⟨x0, hx0, rfl⟩ := hm
      refine ⟨a, e, x0, hh, hl, hx0, ?_⟩
      intro j x hx
      exact hmin j _ (by rw [List.getElem?_map, hx]; rfl)

theorem hub (b : Box) (hz : b.z.length = b.nz) (hy : b.y.length = b.ny) (hb : NonEmpty b) (h1 : b.zRef = none) (h2 : b.uRef = none) :
    ∃ iy iz z0, Middle b.y iy ∧ Middle b.z iz ∧ b.z[iz]? = some z0 ∧
      TurbSim.hubValues b = .ok (z0, mean (TurbSim.series b.u b.nt 0 iy iz)) := by
  have hzn : b.z ≠ [] := by intro h; rw [h] at hz; have := hb.2.2; simp at hz; omega
  have hyn : b.y ≠ [] := by intro h; rw [h] at hy; have := hb.2.1; simp at hy; omega
  obtain ⟨iz, hiz, hlz⟩ := TurbSim.midIndex_some b.z hzn
  obtain ⟨iy, hiy, hly⟩ := TurbSim.midIndex_some b.y hyn
  have hmz := midIndex_middle _ _ hiz
  refine ⟨iy, iz, b.z[iz], midIndex_middle _ _ hiy, hmz, List.getElem?_eq_getElem hlz, ?_⟩
  have hg : b.z.getD iz 0 = b.z[iz] := by simp [List.getD_eq_getElem?_getD, hlz]
  obtain ⟨iz', hiz', hlz'⟩ := TurbSim.argmin_some (b.z.map (fun x => |x - b.z[iz]|)) (by simpa using hzn)
  have hz' : iz' = iz := by
    obtain ⟨m, hm, hmin⟩ := argmin_spec _ _ hiz'
    rw [List.getElem?_map, Option.map_eq_some_iff] at hm
    obtain ⟨x0, hx0, rfl⟩ := hm
    obtain ⟨a, e, m, ha, he, hm', hmid⟩ := hmz
    have hmm : m = b.z[iz] := by
      have := List.getElem?_eq_getElem hlz
      rw [this] at hm'
      exact (Option.some.inj hm').symm
    have h0 := hmin iz 0 (by rw [List.getElem?_map, List.getElem?_eq_getElem hlz]; simp)
    have hx : x0 = b.z[iz] := by
      have : |x0 - b.z[iz]| = 0 := le_antisymm h0.1 (abs_nonneg _)
      have := abs_eq_zero.1 this
      linarith
    rcases Nat.lt_trichotomy iz' iz with hlt | heq | hgt
    · have := (hmid iz' x0 hx0).2 hlt
      rw [hx, hmm] at this
      exact absurd this (lt_irrefl _)
    · exact heq
    · have := h0.2 hgt
      rw [hx] at this
      simp at this
  subst hz'
  unfold TurbSim.hubValues
  rw [h1, h2]
  simp only [hiz, hg, hiz', hiy]
  rw [if_pos ⟨by omega, by omega⟩]

theorem fromMannBox_ok (b : Box) (u v w : Arr) (dx U : ℚ) (y z : List ℚ) (addU : Option ℚ) (nt ny nz : Nat)
    (hu : u.Dims nt ny nz) (hv : v.Dims nt ny nz) (hw : w.Dims nt ny nz) (h0 : 0 < nt ∧ 0 < ny ∧ 0 < nz)
    (hx : dx ≠ 0) (hU : U ≠ 0) (hy : y.length = ny) (hz : z.length = nz) (ho : ∀ a c, y.head? = some a → y.getLast? = some c → a ≤ c) :
    ∃ b' iy iz, fromMannBox b u v w dx U y z addU = .ok b' ∧ b'.nt = nt ∧ b'.ny = ny ∧ b'.nz = nz ∧
      (∀ it iy iz, it < nt → iy < ny → iz < nz →
        b'.u 0 it iy iz = u.f it iy iz + addU.getD 0 ∧ b'.u 1 it iy iz = v.f it iy iz ∧ b'.u 2 it iy iz = w.f it iy iz) ∧
      b'.y = y ∧ b'.z = z ∧ b'.t = (List.range nt).map (fun i : Nat => (i : ℚ) * (dx / U)) ∧ b'.tower = b.tower ∧
      Middle y iy ∧ Middle z iz ∧ b'.zRef = z[iz]? ∧
      b'.uRef = some (((List.range nt).map (fun it => b'.u 0 it iy iz)).sum / nt) := by
  have hd : ¬ (U = 0 ∨ dx / U = 0) := by
    rintro (h | h)
    · exact hU h
    · exact div_ne_zero hx hU h
  obtain ⟨hu1, hu2, hu3⟩ := hu
  have ht : (arange 0 (dx / U * ((u.nt : ℚ) - 1 / 2)) (dx / U)) = (List.range nt).map (fun i : Nat => (i : ℚ) * (dx / U)) := by
    rw [hu1, times nt dx U hx hU]
  obtain ⟨gu, e1, g1⟩ := fit_same nt ny nz u ⟨hu1, hu2, hu3⟩
  obtain ⟨gv, e2, g2⟩ := fit_same nt ny nz v hv
  obtain ⟨gw, e3, g3⟩ := fit_same nt ny nz w hw
  have hyn : y ≠ [] := by intro h; rw [h] at hy; simp at hy; omega
  unfold fromMannBox
  rw [if_neg hd]
  simp only [ht, List.length_map, List.length_range, hu2, hu3]
  rw [List.head?_eq_some_head hyn, List.getLast?_eq_some_getLast hyn]
  simp only
  rw [if_neg (not_lt.2 (ho _ _ (List.head?_eq_some_head hyn) (List.getLast?_eq_some_getLast hyn))), e1, e2, e3]
  simp only [ok_bind]
  obtain ⟨iy, iz, z0, m1, m2, hz0, hh⟩ := hub
    { b with
      nt := nt, ny := ny, nz := nz
      u := fun k it iy iz => if k = 0 then gu it iy iz + addU.getD 0 else if k = 1 then gv it iy iz else gw it iy iz
      t := (List.range nt).map (fun i : Nat => (i : ℚ) * (dx / U)), y := y, z := z, ID := some 7, zRef := none, uRef := none }
    hz hy h0 rfl rfl
  rw [hh]
  refine ⟨_, iy, iz, rfl, rfl, rfl, rfl, ?_, rfl, rfl, rfl, rfl, m1, m2, hz0.symm, ?_⟩
  · intro it iy iz h1 h2 h3
    refine ⟨?_, ?_, ?_⟩
    · show gu it iy iz + addU.getD 0 = _
      rw [g1 it iy iz h1 h2 h3]
    · exact g2 it iy iz h1 h2 h3
    · exact g3 it iy iz h1 h2 h3
  · show some (mean (TurbSim.series _ nt 0 iy iz)) = _
    simp [mean, TurbSim.series]

theorem arr_planes (nt ny nz : Nat) (f : Nat → Nat → Nat → ℚ) (it iy iz : Nat) (h1 : it < nt) (h2 : iy < ny) (h3 : iz < nz) :
    (arr nt ny nz (planes nt ny nz f)).f it iy iz = f it iy iz := by
  show (((planes nt ny nz f).getD it []).getD iy []).getD iz 0 = _
  simp [planes, List.getD_eq_getElem?_getD, h1, h2, h3]

theorem fit_bad (nt ny nz : Nat) (a : Arr) (h : (a.nt ≠ nt ∧ a.nt ≠ 1) ∨ (a.ny ≠ ny ∧ a.ny ≠ 1) ∨ (a.nz ≠ nz ∧ a.nz ≠ 1)) :
    fit nt ny nz a = .error .value := by
  unfold fit
  rw [if_neg]
  rintro ⟨h1, h2, h3⟩
  omega

theorem fit_error (nt ny nz : Nat) (a : Arr) (e : Err) (h : fit nt ny nz a = .error e) : e = .value := by
  unfold fit at h
  split at h
  · cases h
  · cases h; rfl

theorem closestPoint_closest (ys zs : List ℚ) (y z : ℚ) (hy : ys ≠ []) (hz : zs ≠ []) :
    ∃ iy iz, closestPoint ys zs y z = some (iy, iz) ∧ Closest ys y iy ∧ Closest zs z iz := by
  obtain ⟨iy, iz, y0, z0, h, h1, h2, h3, h4⟩ := C27_closest ys zs y z hy hz
  exact ⟨iy, iz, h, ⟨y0, h1, h3⟩, ⟨z0, h2, h4⟩⟩

theorem Closest.lt {c : List ℚ} {x : ℚ} {i : Nat} (h : Closest c x i) : i < c.length := by
  obtain ⟨m, hm, -⟩ := h
  exact (List.getElem?_eq_some_iff.1 hm).1

theorem flatten_at {α : Type} (n : Nat) (l : List (List α)) (h : ∀ x ∈ l, x.length = n) (i k : Nat) (hk : k < n) :
    l.flatten[n * i + k]? = l[i]?.bind (fun x => x[k]?) := by
  induction l generalizing i with
  | nil => simp
  | cons x t ih =>
    have hx := h x (by simp)
    cases i with
    | zero =>
      rw [List.flatten_cons, Nat.mul_zero, Nat.zero_add, List.getElem?_append_left (by omega)]
      rfl
    | succ i =>
      rw [List.flatten_cons, List.getElem?_append_right (by rw [hx]; nlinarith), hx,
        show n * (i + 1) + k - n = n * i + k by rw [Nat.mul_succ]; omega, ih (fun y hy => h y (by simp [hy]))]
      rfl

theorem pairs_at (ys zs : List ℚ) (i j : Nat) (y z : ℚ) (hi : ys[i]? = some y) (hj : zs[j]? = some z) :
    (ys.flatMap (fun y => zs.map (fun z => (y, z))))[i * zs.length + j]? = some (y, z) := by
  have hjl : j < zs.length := (List.getElem?_eq_some_iff.1 hj).1
  rw [List.flatMap_def, Nat.mul_comm, flatten_at zs.length _ (by
    intro x hx
    obtain ⟨y, -, rfl⟩ := List.mem_map.1 hx
    simp) i j hjl, List.getElem?_map, hi]
  simp [hj]

theorem mapM_opt {α β : Type} (f : α → Option β) (g : α → β) (l : List α) (h : ∀ a ∈ l, f a = some (g a)) : l.mapM f = some (l.map g) := by
  induction l with
  | nil => rfl
  | cons a t ih =>
    rw [List.mapM_cons, h a (by simp), ih (fun b hb => h b (by simp [hb]))]
    rfl

theorem probe_ok (fmt0 : ℚ → Str) (b : Box) (hb : NonEmpty b) (hy : b.y.length = b.ny) (hz : b.z.length = b.nz) (y z : ℚ) :
    ∃ iy iz, Closest b.y y iy ∧ Closest b.z z iz ∧ probe fmt0 b y z =
      some ([('u', 0), ('v', 1), ('w', 2)].map (fun ck : Char × Nat =>
        (ck.1 :: ("_y".toList ++ fmt0 (b.y.getD iy 0) ++ "_z".toList ++ fmt0 (b.z.getD iz 0) ++ "_[m/s]".toList), fun it => b.u ck.2 it iy iz))) := by
  have hzn : b.z ≠ [] := by intro h; rw [h] at hz; have := hb.2.2; simp at hz; omega
  have hyn : b.y ≠ [] := by intro h; rw [h] at hy; have := hb.2.1; simp at hy; omega
  obtain ⟨iy, iz, h, h1, h2⟩ := closestPoint_closest b.y b.z y z hyn hzn
  refine ⟨iy, iz, h1, h2, ?_⟩
  unfold probe
  rw [h]
  simp only
  rw [if_pos ⟨by have := h1.lt; omega, by have := h2.lt; omega⟩]

theorem Closest.unique {c : List ℚ} {x : ℚ} {i j : Nat} (h : Closest c x i) (h' : Closest c x j) : i = j := by
  obtain ⟨m, hm, h1⟩ := h
  obtain ⟨m', hm', h2⟩ := h'
  rcases Nat.lt_trichotomy i j with hij | hij | hij
  · exact absurd ((h2 i m hm).2 hij) (not_lt.2 (h1 j m' hm').1)
  · exact hij
  · exact absurd ((h1 j m' hm').2 hij) (not_lt.2 (h2 i m hm).1)

end Verif.MannTurb
