import Verif.Model.Mann
import Verif.Lemmas.FastBin
import Mathlib.Tactic.Linarith
import Mathlib.Tactic.FieldSimp
import Mathlib.Tactic.Ring
import Mathlib.Algebra.BigOperators.Group.List.Basic
/-!
# Properties C21, C22, C27, C57 and C58: Mann turbulence boxes
-/
namespace Verif.Mann
open Verif.Py Verif.Detect

/-! ## C21 -/

/-- a box of `nx × ny × nz` values -/
def Shape (field : List (List (List F))) (nx ny nz : Nat) : Prop :=
  field.length = nx ∧ ∀ plane ∈ field, plane.length = ny ∧ ∀ row ∈ plane, row.length = nz

theorem write_cons (st : Store F) (p : List (List F)) (ps : List (List (List F))) :
    write st (p :: ps) = (p.reverse.flatten).flatMap st.enc ++ write st ps := by
  simp [write]

theorem flatMap_enc_length (st : Store F) (h4 : ∀ x, (st.enc x).length = 4) (l : List F) :
    (l.flatMap st.enc).length = 4 * l.length := by
  rw [List.flatMap_def, flatten_length_const 4]
  · simp
  · intro b hb; obtain ⟨x, _, rfl⟩ := List.mem_map.1 hb; exact h4 x

theorem readPlane_write (st : Store F) (h4 : ∀ x, (st.enc x).length = 4)
    (hrt : ∀ x, st.dec (st.enc x) = x) (ny nz : Nat) (rows : List (List F))
    (hl : rows.length = ny) (hr : ∀ r ∈ rows, r.length = nz) (rest : Bytes) :
    readPlane st ny nz ((rows.flatten).flatMap st.enc ++ rest) = .ok rows ∧
    ((rows.flatten).flatMap st.enc ++ rest).drop (4 * ny * nz) = rest := by
  have hfl : rows.flatten.length = ny * nz := by
    rw [flatten_length_const nz rows hr, hl, Nat.mul_comm]
  have hlen : ((rows.flatten).flatMap st.enc).length = 4 * ny * nz := by
    rw [flatMap_enc_length st h4, hfl, Nat.mul_assoc]
  refine ⟨?_, List.drop_left' hlen⟩
  unfold readPlane
  rw [List.take_left' hlen]
  simp only
  rw [if_pos hlen]
  have h1 : rowsOf 4 (ny * nz) ((rows.flatten).flatMap st.enc) = rows.flatten.map st.enc := by
    have := rowsOf_flatten 4 (rows.flatten.map st.enc) (by
      intro b hb; obtain ⟨x, _, rfl⟩ := List.mem_map.1 hb; exact h4 x) []
    rw [List.length_map, hfl, List.append_nil] at this
    rw [List.flatMap_def]; exact this
  have h2 : (rows.flatten.map st.enc).map st.dec = rows.flatten := by
    rw [List.map_map]
    have : st.dec ∘ st.enc = id := funext hrt
    rw [this, List.map_id]
  have h3 := rowsOf_flatten nz rows hr []
  rw [List.append_nil, hl] at h3
  rw [h1, h2, h3]

theorem readPlanes_write (st : Store F) (h4 : ∀ x, (st.enc x).length = 4)
    (hrt : ∀ x, st.dec (st.enc x) = x) (ny nz : Nat) (field : List (List (List F)))
    (h : ∀ plane ∈ field, plane.length = ny ∧ ∀ row ∈ plane, row.length = nz) (rest : Bytes) :
    readPlanes st ny nz field.length (write st field ++ rest) = .ok field := by
  induction field with
  | nil => rfl
  | cons p ps ih =>
    obtain ⟨h1, h2⟩ := h p (List.mem_cons_self ..)
    obtain ⟨g1, g2⟩ := readPlane_write st h4 hrt ny nz p.reverse (by simpa using h1)
      (by intro r hr; exact h2 r (List.mem_reverse.1 hr)) (write st ps ++ rest)
    rw [List.length_cons, write_cons, List.append_assoc]
    unfold readPlanes
    rw [g1]
    simp only
    rw [g2, ih (fun x hx => h x (List.mem_cons_of_mem _ hx)), List.reverse_reverse]

theorem write_length (st : Store F) (h4 : ∀ x, (st.enc x).length = 4)
    (field : List (List (List F))) (nx ny nz : Nat) (hs : Shape field nx ny nz) :
    (write st field).length = 4 * nx * ny * nz := by
  unfold write
  rw [flatten_length_const (4 * ny * nz)]
  · rw [List.length_map, hs.1]
    simp only [Nat.mul_comm, Nat.mul_left_comm]
  · intro b hb
    obtain ⟨p, hp, rfl⟩ := List.mem_map.1 hb
    obtain ⟨h1, h2⟩ := hs.2 p hp
    rw [flatMap_enc_length st h4, flatten_length_const nz _ (fun r hr => h2 r (List.mem_reverse.1 hr)),
      List.length_reverse, h1, Nat.mul_assoc, Nat.mul_comm nz]

/-- C21: a non-empty box written and read back with its dimensions is the same
box. -/
theorem C21_roundtrip (st : Store F) (h4 : ∀ x, (st.enc x).length = 4)
    (hrt : ∀ x, st.dec (st.enc x) = x) (field : List (List (List F))) (nx ny nz : Nat)
    (hs : Shape field nx ny nz) (hx : 0 < nx) (hy : 0 < ny) (hz : 0 < nz)
    (fs : Str → Option Bytes) (name : Str) (hn : name ≠ []) (hf : fs name = some (write st field)) :
    read st fs name (some (nx, ny, nz)) = .ok field := by
  have hlen := write_length st h4 field nx ny nz hs
  have hne : write st field ≠ [] := by
    intro h
    rw [h] at hlen
    have : 0 < 4 * nx * ny * nz := by positivity
    simp at hlen
    omega
  unfold read
  rw [if_neg hn, hf]
  simp only
  rw [if_neg hne, ← hs.1]
  have := readPlanes_write st h4 hrt ny nz field hs.2 []
  rwa [List.append_nil] at this

/-- a storage for small naturals, 2×1×3 box -/
example : read (F := Fin 256) ⟨fun x => [UInt8.ofNat x, 0, 0, 0], fun b => ⟨(b.headD 0).toNat, by
      exact (b.headD 0).toNat_lt⟩⟩
    (fun _ => some (write ⟨fun x => [UInt8.ofNat x, 0, 0, 0], fun _ => 0⟩ [[[1, 2], [3, 4]], [[5, 6], [7, 8]]]))
    "box.u".toList (some (2, 2, 2)) = .ok [[[1, 2], [3, 4]], [[5, 6], [7, 8]]] := rfl

/-- C21, where each value is: after reading, the value at `(ix, iy, iz)` is item
`(ix*ny + (ny-1-iy))*nz + iz` of the file. -/
theorem C21_location (st : Store F) (nx ny nz : Nat) (bs : Bytes) (field : List (List (List F)))
    (h : readPlanes st ny nz nx bs = .ok field) :
    Shape field nx ny nz ∧ ∀ ix iy iz, ix < nx → iy < ny → iz < nz →
      ∃ plane row, field[ix]? = some plane ∧ plane[iy]? = some row ∧
        row[iz]? = some (st.dec ((bs.drop (4 * ((ix * ny + (ny - 1 - iy)) * nz + iz))).take 4)) := by
  induction nx generalizing bs field with
  | zero =>
    simp only [readPlanes, Except.ok.injEq] at h
    subst h
    exact ⟨⟨rfl, by simp⟩, fun ix _ _ h => by omega⟩
  | succ nx ih =>
    unfold readPlanes at h
    split at h
    · exact nomatch h
    · rename_i plane hp
      split at h
      · exact nomatch h
      · rename_i rest hrest
        injection h with h
        subst h
        obtain ⟨⟨hs1, hs2⟩, hloc⟩ := ih _ _ hrest
        unfold readPlane at hp
        simp only at hp
        split at hp
        · rename_i hlen
          injection hp with hp
          have hmul : 4 * (ny * nz) = 4 * ny * nz := by rw [Nat.mul_assoc]
          have hpl : plane.length = ny := by rw [← hp, length_rowsOf]
          have hget : ∀ iy, iy < ny → plane[iy]? = some
              (((rowsOf 4 (ny * nz) (bs.take (4 * ny * nz))).map st.dec).drop (nz * iy) |>.take nz) := by
            intro iy hiy
            rw [← hp, getElem?_rowsOf _ _ _ _ hiy]
          have hle : ∀ iy, iy < ny → nz * iy + nz ≤ ny * nz := by
            intro iy hiy
            rw [← Nat.mul_succ, Nat.mul_comm ny]
            exact Nat.mul_le_mul_left _ hiy
          have hrl : ∀ row ∈ plane, row.length = nz := by
            intro row hrow
            obtain ⟨iy, hiy⟩ := List.mem_iff_getElem?.1 hrow
            have hlt : iy < ny := by rw [← hpl]; exact (List.getElem?_eq_some_iff.1 hiy).1
            rw [hget iy hlt] at hiy
            injection hiy with hiy
            rw [← hiy]
            have := hle iy hlt
            simp [length_rowsOf]
            omega
          refine ⟨⟨by simp [hs1], ?_⟩, ?_⟩
          · intro p hpm
            rcases List.mem_cons.1 hpm with rfl | hpm
            · exact ⟨by simp [hpl], fun r hr => hrl r (List.mem_reverse.1 hr)⟩
            · exact hs2 p hpm
          · intro ix iy iz hix hiy hiz
            cases ix with
            | zero =>
              refine ⟨plane.reverse, (((rowsOf 4 (ny * nz) (bs.take (4 * ny * nz))).map st.dec).drop
                (nz * (ny - 1 - iy)) |>.take nz), rfl, ?_, ?_⟩
              · rw [List.getElem?_reverse (by omega), hpl]
                exact hget _ (by omega)
              · have := hle (ny - 1 - iy) (by omega)
                rw [List.getElem?_take, if_pos hiz, List.getElem?_drop, List.getElem?_map,
                  getElem?_rowsOf _ _ _ _ (by omega), Option.map_some]
                congr 1
                congr 1
                rw [List.drop_take, List.take_take, Nat.min_eq_left (by omega), Nat.zero_mul,
                  Nat.zero_add, Nat.mul_comm nz]
            | succ ix =>
              obtain ⟨p, row, h1, h2, h3⟩ := hloc ix iy iz (by omega) hiy hiz
              refine ⟨p, row, h1, h2, ?_⟩
              rw [h3, List.drop_drop]
              congr 5
              have e : (ix + 1) * ny + (ny - 1 - iy) = ny + (ix * ny + (ny - 1 - iy)) := by
                rw [Nat.succ_mul]; omega
              rw [e, Nat.add_mul ny, Nat.add_assoc, Nat.mul_add 4 (ny * nz), ← Nat.mul_assoc 4 ny nz]
        · exact nomatch hp

/-- C21: distinct indices never share storage. -/
theorem C21_injective (ny nz ix iy iz ix' iy' iz' : Nat) (hy : iy < ny) (hz : iz < nz)
    (hy' : iy' < ny) (hz' : iz' < nz)
    (h : (ix * ny + (ny - 1 - iy)) * nz + iz = (ix' * ny + (ny - 1 - iy')) * nz + iz') :
    ix = ix' ∧ iy = iy' ∧ iz = iz' := by
  have hz1 : iz = iz' := by
    have := congrArg (· % nz) h
    simpa [Nat.mod_eq_of_lt hz, Nat.mod_eq_of_lt hz'] using this
  subst hz1
  have h2 : ix * ny + (ny - 1 - iy) = ix' * ny + (ny - 1 - iy') :=
    Nat.eq_of_mul_eq_mul_right (by omega) (by omega : _ * nz = _ * nz)
  have hy1 : ny - 1 - iy = ny - 1 - iy' := by
    have := congrArg (· % ny) h2
    simpa [Nat.mod_eq_of_lt (show ny - 1 - iy < ny by omega),
      Nat.mod_eq_of_lt (show ny - 1 - iy' < ny by omega)] using this
  rw [hy1] at h2
  have h3 : ix * ny = ix' * ny := by omega
  exact ⟨Nat.eq_of_mul_eq_mul_right (by omega) h3, by omega, rfl⟩

/-! ## C57: wrong sizes -/

/-- C57 is violated: a file with more data than the dimensions is read without
complaint. -/
theorem C57_fails : ∃ (st : Store Nat) (bs : Bytes), bs.length = 4 * 3 ∧
    read st (fun _ => some bs) "box_1x1x2.u".toList none = .ok [[[1, 2]]] :=
  ⟨⟨fun n => leBytes 4 n, leNat⟩, [1, 0, 0, 0, 2, 0, 0, 0, 3, 0, 0, 0], rfl, rfl⟩

theorem readPlanes_short (st : Store F) (ny nz nx : Nat) (bs : Bytes)
    (h : bs.length < 4 * nx * ny * nz) : readPlanes st ny nz nx bs = .error .valueError := by
  induction nx generalizing bs with
  | zero => simp at h
  | succ nx ih =>
    unfold readPlanes readPlane
    simp only
    by_cases hs : (bs.take (4 * ny * nz)).length = 4 * ny * nz
    · rw [if_pos hs]
      simp only
      rw [ih]
      rw [List.length_take] at hs
      rw [List.length_drop]
      have : 4 * (nx + 1) * ny * nz = 4 * nx * ny * nz + 4 * ny * nz := by ring
      omega
    · rw [if_neg hs]

/-- C57, files that are too short: they are refused. -/
theorem C57_partial (st : Store F) (fs : Str → Option Bytes) (name : Str) (nx ny nz : Nat)
    (bs : Bytes) (hf : fs name = some bs) (h : bs.length < 4 * nx * ny * nz) :
    ∃ e, read st fs name (some (nx, ny, nz)) = .error e := by
  unfold read
  by_cases hn : name = []
  · exact ⟨_, if_pos hn⟩
  · rw [if_neg hn, hf]
    simp only
    by_cases hb : bs = []
    · exact ⟨_, if_pos hb⟩
    · rw [if_neg hb]
      exact ⟨_, readPlanes_short st ny nz nx bs h⟩

example : ∃ e, read (F := Nat) ⟨fun n => leBytes 4 n, leNat⟩
    (fun _ => some [1, 0, 0, 0, 2, 0, 0]) "b".toList (some (1, 1, 2)) = .error e :=
  C57_partial _ _ _ 1 1 2 _ rfl (by decide)

/-! ## C22 -/

/-- number of positions where a run of digits starts -/
def runStarts (prevDigit : Bool) : Str → Nat
  | [] => 0
  | c :: s => (if c.isDigit && !prevDigit then 1 else 0) + runStarts c.isDigit s

theorem digitRunsAux_length (acc s : Str) :
    (digitRunsAux acc s).length = (if acc = [] then 0 else 1) + runStarts (!acc.isEmpty) s := by
  induction s generalizing acc with
  | nil => unfold digitRunsAux runStarts; split <;> rfl
  | cons c s ih =>
    unfold digitRunsAux runStarts
    by_cases hc : c.isDigit = true
    · rw [if_pos hc, ih]
      cases acc <;> simp [hc]
    · rw [if_neg hc]
      cases acc with
      | nil => rw [if_pos rfl, ih]; simp [hc]
      | cons a l => simp [ih, hc]; omega

theorem digitRunsAux_digits (acc d s : Str) (hd : ∀ c ∈ d, c.isDigit = true) :
    digitRunsAux acc (d ++ s) = digitRunsAux (acc ++ d) s := by
  induction d generalizing acc with
  | nil => simp
  | cons c d ih =>
    simp only [List.cons_append, digitRunsAux]
    rw [if_pos (hd c (List.mem_cons_self ..)), ih _ (fun x hx => hd x (List.mem_cons_of_mem _ hx))]
    simp

theorem digitRunsAux_nondigits (s t : Str) (hs : ∀ c ∈ s, c.isDigit = false) :
    digitRunsAux [] (s ++ t) = digitRunsAux [] t := by
  induction s with
  | nil => rfl
  | cons c s ih =>
    simp only [List.cons_append, digitRunsAux]
    rw [if_neg (by rw [hs c (List.mem_cons_self ..)]; simp), if_pos trivial,
      ih (fun x hx => hs x (List.mem_cons_of_mem _ hx))]

/-- a run followed by a non-digit -/
theorem digitRunsAux_run (acc : Str) (ha : acc ≠ []) (s t : Str) (hne : s ≠ [])
    (hs : ∀ c ∈ s, c.isDigit = false) :
    digitRunsAux acc (s ++ t) = acc :: digitRunsAux [] t := by
  cases s with
  | nil => exact absurd rfl hne
  | cons c s =>
    simp only [List.cons_append, digitRunsAux]
    rw [if_neg (by rw [hs c (List.mem_cons_self ..)]; simp), if_neg ha,
      digitRunsAux_nondigits s t (fun x hx => hs x (List.mem_cons_of_mem _ hx))]

theorem digitRunsAux_end (acc : Str) (ha : acc ≠ []) (s : Str) (hs : ∀ c ∈ s, c.isDigit = false) :
    digitRunsAux acc s = [acc] := by
  cases s with
  | nil => simp [digitRunsAux, ha]
  | cons c s =>
    have := digitRunsAux_run acc ha (c :: s) [] (by simp) hs
    rw [List.append_nil] at this
    rw [this]; rfl

/-- whatever stands before a non-digit only adds runs at the front -/
theorem digitRunsAux_prefix (acc s t : Str) (h : s ≠ [] ∨ acc = [])
    (hl : ∀ c, s.getLast? = some c → c.isDigit = false) :
    ∃ pre, digitRunsAux acc (s ++ t) = pre ++ digitRunsAux [] t := by
  induction s generalizing acc with
  | nil =>
    rcases h with h | h
    · exact absurd rfl h
    · exact ⟨[], by simp [h]⟩
  | cons c s ih =>
    simp only [List.cons_append, digitRunsAux]
    by_cases hs : s = []
    · subst hs
      have hc : c.isDigit = false := hl c rfl
      rw [if_neg (by rw [hc]; simp)]
      split
      · exact ⟨[], rfl⟩
      · exact ⟨[acc], rfl⟩
    · have hl' : ∀ x, s.getLast? = some x → x.isDigit = false := by
        intro x hx
        apply hl x
        rw [List.getLast?_cons]
        simp [hx]
      split
      · exact ih _ (Or.inl hs) hl'
      · split
        · exact ih _ (Or.inl hs) hl'
        · obtain ⟨pre, hp⟩ := ih [] (Or.inl hs) hl'
          exact ⟨acc :: pre, by rw [hp]; rfl⟩

/-- C22: if the base name (without extension) is
`pre d1 sep1 d2 sep2 d3 post`, with digit strings `d1 d2 d3`, separators and
`post` free of digits and `pre` not ending with a digit, the dimensions are these
last three numbers. -/
theorem C22_last_three (filename pre d1 s1 d2 s2 d3 post : Str)
    (hb : baseStem filename = pre ++ (d1 ++ (s1 ++ (d2 ++ (s2 ++ (d3 ++ post))))))
    (hpre : ∀ c, pre.getLast? = some c → c.isDigit = false)
    (h1 : d1 ≠ [] ∧ ∀ c ∈ d1, c.isDigit = true) (h2 : d2 ≠ [] ∧ ∀ c ∈ d2, c.isDigit = true)
    (h3 : d3 ≠ [] ∧ ∀ c ∈ d3, c.isDigit = true) (hs1 : s1 ≠ [] ∧ ∀ c ∈ s1, c.isDigit = false)
    (hs2 : s2 ≠ [] ∧ ∀ c ∈ s2, c.isDigit = false) (hp : ∀ c ∈ post, c.isDigit = false) :
    inferDims filename = .ok (Nat.ofDigitChars 10 d1 0, Nat.ofDigitChars 10 d2 0,
      Nat.ofDigitChars 10 d3 0) := by
  obtain ⟨runs, hr⟩ := digitRunsAux_prefix [] pre (d1 ++ (s1 ++ (d2 ++ (s2 ++ (d3 ++ post)))))
    (Or.inr rfl) hpre
  have : digitRuns (baseStem filename) = runs ++ [d1, d2, d3] := by
    unfold digitRuns
    rw [hb, hr]
    congr 1
    rw [digitRunsAux_digits [] d1 _ h1.2, List.nil_append, digitRunsAux_run d1 h1.1 s1 _ hs1.1 hs1.2,
      digitRunsAux_digits [] d2 _ h2.2, List.nil_append, digitRunsAux_run d2 h2.1 s2 _ hs2.1 hs2.2,
      digitRunsAux_digits [] d3 _ h3.2, List.nil_append, digitRunsAux_end d3 h3.1 post hp]
  unfold inferDims
  simp only [this, List.map_append, List.reverse_append]
  rfl

/-- C22: with fewer than three runs of digits in the base name (and only then)
the file is rejected. -/
theorem C22_rejected (filename : Str) :
    inferDims filename = .error .brokenFormat ↔ runStarts false (baseStem filename) < 3 := by
  have hl : (digitRuns (baseStem filename)).length = runStarts false (baseStem filename) := by
    unfold digitRuns
    rw [digitRunsAux_length]
    simp
  unfold inferDims
  simp only
  rw [← hl, ← List.length_map (fun d => Nat.ofDigitChars 10 d 0), ← List.length_reverse]
  generalize (List.map (fun d => Nat.ofDigitChars 10 d 0) (digitRuns (baseStem filename))).reverse = r
  match r with
  | [] => simp
  | [_] => simp
  | [_, _] => simp
  | _ :: _ :: _ :: _ => simp

example : inferDims "dir/mini-u2_1024x32x16.bin".toList = .ok (1024, 32, 16) :=
  C22_last_three _ "mini-u2_".toList "1024".toList "x".toList "32".toList "x".toList "16".toList []
    rfl (by simp) (by decide) (by decide) (by decide) (by decide) (by decide) (by simp)

example : inferDims "box_32x32.u".toList = .error .brokenFormat := rfl

/-! ## C27 -/

theorem argminAux_spec (best : ℚ) (bi i : Nat) (full xs : List ℚ) (hi : full.drop i = xs)
    (hb : full[bi]? = some best) (hlt : bi < i)
    (hmin : ∀ (j : Nat) v, j < i → full[j]? = some v → best ≤ v ∧ (j < bi → best < v)) :
    ∃ m, full[argminAux best bi i xs]? = some m ∧
      ∀ (j : Nat) v, full[j]? = some v → m ≤ v ∧ (j < argminAux best bi i xs → m < v) := by
  induction xs generalizing best bi i with
  | nil =>
    refine ⟨best, hb, fun j v hj => hmin j v ?_ hj⟩
    have : full.length ≤ i := by simpa using hi
    have := (List.getElem?_eq_some_iff.1 hj).1
    omega
  | cons x xs ih =>
    have hx : full[i]? = some x := by
      have := congrArg (·[0]?) hi
      simpa using this
    have hd : full.drop (i + 1) = xs := by
      rw [← List.drop_drop, hi]; rfl
    unfold argminAux
    split
    · rename_i hlt2
      refine ih x i (i + 1) hd hx (by omega) ?_
      intro j v hj hv
      by_cases hji : j = i
      · subst hji
        rw [hx] at hv
        injection hv with hv
        subst hv
        exact ⟨le_refl _, fun h => absurd h (lt_irrefl _)⟩
      · have := (hmin j v (by omega) hv).1
        exact ⟨by linarith, fun _ => by linarith⟩
    · rename_i hge
      refine ih best bi (i + 1) hd hb (by omega) ?_
      intro j v hj hv
      by_cases hji : j = i
      · subst hji
        rw [hx] at hv
        injection hv with hv
        subst hv
        exact ⟨by linarith, fun h => absurd h (by omega)⟩
      · exact hmin j v (by omega) hv

theorem argmin_spec (l : List ℚ) (i : Nat) (h : argmin l = some i) :
    ∃ m, l[i]? = some m ∧ ∀ (j : Nat) v, l[j]? = some v → m ≤ v ∧ (j < i → m < v) := by
  cases l with
  | nil => exact nomatch h
  | cons x xs =>
    injection h with h
    subst h
    refine argminAux_spec x 0 1 (x :: xs) xs rfl rfl (by decide) ?_
    intro j v hj hv
    have : j = 0 := by omega
    subst this
    injection hv with hv
    subst hv
    exact ⟨le_refl _, fun h => absurd h (by omega)⟩

/-- C27: on a grid with at least one y and one z, `closestPoint` returns indices
of grid coordinates whose distances to the request are minimal, and the first
such indices when there are several. -/
theorem C27_closest (ys zs : List ℚ) (y z : ℚ) (hy : ys ≠ []) (hz : zs ≠ []) :
    ∃ iy iz y0 z0, closestPoint ys zs y z = some (iy, iz) ∧ ys[iy]? = some y0 ∧ zs[iz]? = some z0 ∧
      (∀ (j : Nat) y', ys[j]? = some y' → |y0 - y| ≤ |y' - y| ∧ (j < iy → |y0 - y| < |y' - y|)) ∧
      (∀ (j : Nat) z', zs[j]? = some z' → |z0 - z| ≤ |z' - z| ∧ (j < iz → |z0 - z| < |z' - z|)) := by
  have key : ∀ (l : List ℚ) (a : ℚ), l ≠ [] → ∃ i x0, argmin (l.map (fun b => |b - a|)) = some i ∧
      l[i]? = some x0 ∧ ∀ (j : Nat) x', l[j]? = some x' →
        |x0 - a| ≤ |x' - a| ∧ (j < i → |x0 - a| < |x' - a|) := by
    intro l a hl
    cases l with
    | nil => exact absurd rfl hl
    | cons b l =>
      have hm : argmin ((b :: l).map (fun b => |b - a|)) = some (argminAux (|b - a|) 0 1 (l.map (fun b => |b - a|))) := rfl
      obtain ⟨m, h1, h2⟩ := argmin_spec _ _ hm
      rw [List.getElem?_map] at h1
      obtain ⟨x0, h3, h4⟩ := Option.map_eq_some_iff.1 h1
      refine ⟨_, x0, hm, h3, ?_⟩
      intro j x' hj
      have := h2 j (|x' - a|) (by rw [List.getElem?_map, hj]; rfl)
      rw [← h4] at this
      exact this
  obtain ⟨iy, y0, a1, a2, a3⟩ := key ys y hy
  obtain ⟨iz, z0, b1, b2, b3⟩ := key zs z hz
  exact ⟨iy, iz, y0, z0, by unfold closestPoint; rw [a1, b1], a2, b2, a3, b3⟩

/-- a tie in y: the first of the two points is taken -/
example : closestPoint [-2, 0, 2] [10, 20] 1 18 = some (1, 1) := by decide +kernel

/-! ## C58: coordinates -/

theorem arange_length (a h : ℚ) (n : Nat) (hh : h ≠ 0) (e : ℚ) (he0 : 0 < e) (he1 : e ≤ 1) : arange a (a + ((n : ℚ) - 1 + e) * h) h
      = (List.range n).map (fun (i : Nat) => a + i * h) := by
  unfold arange
  have h1 : (a + ((n : ℚ) - 1 + e) * h - a) / h = (n : ℚ) - 1 + e := by
    rw [add_sub_cancel_left, mul_div_assoc, div_self hh, mul_one]
  have h2 : ⌈(n : ℚ) - 1 + e⌉ = (n : Int) := by
    rw [Int.ceil_eq_iff]
    constructor
    · push_cast; linarith
    · push_cast; linarith
  rw [h1, h2, Int.toNat_natCast]

theorem mean_shift (l : List ℚ) (hl : l ≠ []) (c : ℚ) : mean (l.map (fun x => x + c)) = mean l + c := by
  unfold mean
  have hs : ∀ l : List ℚ, (l.map (fun x => x + c)).sum = l.sum + l.length * c := by
    intro l
    induction l with
    | nil => simp
    | cons a l ih => simp only [List.map_cons, List.sum_cons, ih, List.length_cons]; push_cast; ring
  have : (l.length : ℚ) ≠ 0 := by
    simpa using hl
  rw [hs, List.length_map]
  field_simp

/-- C58, y: `ny` equidistant points starting at `y0`, or centred on 0. -/
theorem C58_y (ny : Nat) (hn : 0 < ny) (y0 : Option ℚ) (dy : ℚ) (hd : dy ≠ 0) :
    (yCoord ny y0 dy).length = ny ∧
    (∀ (i : Nat) a b, (yCoord ny y0 dy)[i]? = some a → (yCoord ny y0 dy)[i + 1]? = some b →
      b - a = dy) ∧
    (∀ s, y0 = some s → (yCoord ny y0 dy)[0]? = some s) ∧
    (y0 = none → mean (yCoord ny y0 dy) = 0) := by
  cases y0 with
  | some s =>
    have := arange_length s dy ny hd (1 / 10) (by norm_num) (by norm_num)
    unfold yCoord
    simp only
    rw [this]
    refine ⟨by simp, ?_, ?_, by simp⟩
    · intro i a b ha hb
      have h1 : i + 1 < ny := by simpa using (List.getElem?_eq_some_iff.1 hb).1
      rw [List.getElem?_map, List.getElem?_range (by omega)] at ha
      rw [List.getElem?_map, List.getElem?_range h1] at hb
      injection ha with ha
      injection hb with hb
      rw [← ha, ← hb]; push_cast; ring
    · intro t ht
      injection ht with ht
      subst ht
      rw [List.getElem?_map, List.getElem?_range hn]
      simp
  | none =>
    have := arange_length 0 dy ny hd (1 / 10) (by norm_num) (by norm_num)
    rw [zero_add] at this
    unfold yCoord
    simp only
    rw [this]
    refine ⟨by simp, ?_, by simp, fun _ => ?_⟩
    · intro i a b ha hb
      have h1 : i + 1 < ny := by simpa using (List.getElem?_eq_some_iff.1 hb).1
      rw [List.getElem?_map, List.getElem?_map, List.getElem?_range (by omega)] at ha
      rw [List.getElem?_map, List.getElem?_map, List.getElem?_range h1] at hb
      injection ha with ha
      injection hb with hb
      rw [← ha, ← hb]; push_cast; ring
    · have hne : (List.range ny).map (fun (i : Nat) => (0 : ℚ) + i * dy) ≠ [] := by
        intro h
        have := congrArg List.length h
        simp at this
        omega
      have := mean_shift _ hne (-mean ((List.range ny).map (fun (i : Nat) => (0 : ℚ) + i * dy)))
      simp only [← sub_eq_add_neg] at this
      rw [this]; ring

/-- C58, z: `nz` equidistant points starting at `z0`, or with mean `zMid`. -/
theorem C58_z (nz : Nat) (hn : 0 < nz) (z0 dz : ℚ) (zMid : Option ℚ) (hd : dz ≠ 0) :
    (zCoord nz z0 dz zMid).length = nz ∧
    (∀ (i : Nat) a b, (zCoord nz z0 dz zMid)[i]? = some a →
      (zCoord nz z0 dz zMid)[i + 1]? = some b → b - a = dz) ∧
    (zMid = none → (zCoord nz z0 dz zMid)[0]? = some z0) ∧
    (∀ m, zMid = some m → mean (zCoord nz z0 dz zMid) = m) := by
  have := arange_length z0 dz nz hd (1 / 10) (by norm_num) (by norm_num)
  unfold zCoord
  simp only
  rw [this]
  have hne : (List.range nz).map (fun (i : Nat) => z0 + i * dz) ≠ [] := by
    intro h
    have := congrArg List.length h
    simp at this
    omega
  cases zMid with
  | none =>
    refine ⟨by simp, ?_, ?_, by simp⟩
    · intro i a b ha hb
      have h1 : i + 1 < nz := by simpa using (List.getElem?_eq_some_iff.1 hb).1
      simp only [List.getElem?_map, List.getElem?_range h1,
        List.getElem?_range (show i < nz by omega)] at ha hb
      injection ha with ha
      injection hb with hb
      rw [← ha, ← hb]; push_cast; ring
    · intro _
      simp [List.getElem?_range hn]
  | some m =>
    refine ⟨by simp, ?_, by simp, ?_⟩
    · intro i a b ha hb
      have h1 : i + 1 < nz := by simpa using (List.getElem?_eq_some_iff.1 hb).1
      simp only [List.getElem?_map, List.getElem?_range h1,
        List.getElem?_range (show i < nz by omega)] at ha hb
      injection ha with ha
      injection hb with hb
      rw [← ha, ← hb]; push_cast; ring
    · intro m' hm
      injection hm with hm
      subst hm
      rw [mean_shift _ hne]; ring

/-- C58, t: `nt` equidistant times starting at 0. -/
theorem C58_t (nt : Nat) (dx U : ℚ) (hd : dx ≠ 0) (hU : U ≠ 0) :
    tCoord nt dx U = (List.range nt).map (fun (i : Nat) => i * (dx / U)) := by
  unfold tCoord
  have := arange_length 0 (dx / U) nt (div_ne_zero hd hU) (1 / 2) (by norm_num) (by norm_num)
  rw [zero_add] at this
  simp only
  rw [show dx / U * ((nt : ℚ) - 1 / 2) = ((nt : ℚ) - 1 + 1 / 2) * (dx / U) by ring, this]
  simp

example : yCoord 3 none 2 = [-2, 0, 2] ∧ zCoord 2 5 10 (some 100) = [95, 105] ∧
    tCoord 3 10 5 = [0, 2, 4] := by decide +kernel

end Verif.Mann
