import Verif.Lemmas.MannTurb
import Verif.Props.Mann
import Verif.Props.TurbSim
import Verif.Lemmas.FastLine
import Verif.Lemmas.HawcAe
import Verif.Lemmas.DeckRead
import Mathlib.Tactic
/-! # Properties of the conversions between TurbSim and Mann boxes -/
namespace Verif.MannTurb
open Verif.Py Verif.Mann
open Verif.TurbSim (Box Field midIndex)
open Verif.DeckRead (bind_ok ok_bind)

/-- four bytes for whole numbers from 0 to 255 -/
def toy : Store ℚ := ⟨fun x => [UInt8.ofNat x.num.toNat, 0, 0, 0], fun b => ((b.headD 0).toNat : ℚ)⟩

/-- what these bytes keep -/
def toyRd (x : ℚ) : ℚ := ((UInt8.ofNat x.num.toNat).toNat : ℚ)

theorem exKeeps : Keeps toy toyRd := fun _ => ⟨rfl, rfl⟩

/-- two time steps, one y and two z -/
def exBox : Box where
  nt := 2
  ny := 1
  nz := 2
  u := fun k it _ iz => ((10 * k + 4 * it + iz : Nat) : ℚ)
  tower := none
  y := [0]
  z := [10, 20]
  t := [0, 1]
  ID := none
  zRef := none
  uRef := none

/-- **C158** `toMannBox` writes three files, whose names have the dimensions of the box and the letter of the
component, and no other; each is read by its name alone as the component, to the precision of the storage,
what was to be removed being taken from the first one only. -/
theorem C158 (st : Store ℚ) (rd : ℚ → ℚ) (hst : Keeps st rd) (fs : FS) (b : Box) (hb : NonEmpty b) (filename : Option Str) (base : Str)
    (rc : Option ℚ) (all : Bool) : ∃ fs', toMannBox st fs b filename (some base) rc all = .ok fs' ∧
      (∀ n, n ≠ fileOf base b 'u' → n ≠ fileOf base b 'v' → n ≠ fileOf base b 'w' → fs' n = fs n) ∧
      ∃ lu lv lw, Mann.read st fs' (fileOf base b 'u') none = .ok lu ∧ Mann.read st fs' (fileOf base b 'v') none = .ok lv ∧
        Mann.read st fs' (fileOf base b 'w') none = .ok lw ∧
        Holds lu b.nt b.ny b.nz (fun it iy iz => rd (b.u 0 it iy iz - removed b rc all iy iz)) ∧
        Holds lv b.nt b.ny b.nz (fun it iy iz => rd (b.u 1 it iy iz)) ∧ Holds lw b.nt b.ny b.nz (fun it iy iz => rd (b.u 2 it iy iz)) := by
  obtain ⟨fs', h, ho, hu, hv, hw⟩ := saved st rd hst fs b hb filename base rc all
  exact ⟨fs', h, ho, _, _, _, hu, hv, hw, planes_holds _ _ _ _, planes_holds _ _ _ _, planes_holds _ _ _ _⟩

example : fileOf "a/Turb".toList exBox 'u' = "a/Turb_2x1x2.u".toList ∧
    ∃ fs', toMannBox toy (fun _ => none) exBox none (some "a/Turb".toList) none false = .ok fs' ∧
      (∀ n, n ≠ fileOf "a/Turb".toList exBox 'u' → n ≠ fileOf "a/Turb".toList exBox 'v' → n ≠ fileOf "a/Turb".toList exBox 'w' → fs' n = none) ∧
      ∃ lu lv lw, Mann.read toy fs' (fileOf "a/Turb".toList exBox 'u') none = .ok lu ∧ Mann.read toy fs' (fileOf "a/Turb".toList exBox 'v') none = .ok lv ∧
        Mann.read toy fs' (fileOf "a/Turb".toList exBox 'w') none = .ok lw ∧
        Holds lu 2 1 2 (fun it iy iz => toyRd (exBox.u 0 it iy iz - removed exBox none false iy iz)) ∧
        Holds lv 2 1 2 (fun it iy iz => toyRd (exBox.u 1 it iy iz)) ∧ Holds lw 2 1 2 (fun it iy iz => toyRd (exBox.u 2 it iy iz)) :=
  ⟨by decide +kernel, C158 toy toyRd exKeeps (fun _ => none) exBox ⟨by decide, by decide, by decide⟩ none "a/Turb".toList none false⟩

/-- **C158** Without a base name that of the file of the box is used, without its extension. -/
theorem C158_base (st : Store ℚ) (fs : FS) (b : Box) (dir stem ext : Str) (rc : Option ℚ) (all : Bool)
    (h1 : '/' ∉ stem) (h2 : ∃ x ∈ stem, x ≠ '.') (h3 : '.' ∉ ext) (h4 : '/' ∉ ext) (hd : dir = [] ∨ ∃ d, dir = d ++ ['/']) :
    toMannBox st fs b (some (dir ++ stem ++ '.' :: ext)) none rc all =
      toMannBox st fs b (some (dir ++ stem ++ '.' :: ext)) (some (dir ++ stem)) rc all := by
  have hb : Detect.afterSlash (dir ++ stem ++ '.' :: ext) = stem ++ '.' :: ext := by
    rw [List.append_assoc, afterSlash_app _ _ (by simp [h1, h4])]
    rcases hd with rfl | ⟨d, rfl⟩
    · rfl
    · simp [Detect.afterSlash]
  have he : Detect.splitextExt (dir ++ stem ++ '.' :: ext) = '.' :: ext := by
    unfold Detect.splitextExt
    rw [hb]
    have hr : (stem ++ '.' :: ext).reverse = ext.reverse ++ '.' :: stem.reverse := by simp
    have hx : ∀ x ∈ ext.reverse, (decide (x ≠ '.')) = true := by
      intro x hx
      simp only [ne_eq, decide_eq_true_eq]
      rintro rfl
      exact h3 (List.mem_reverse.1 hx)
    have hdw : (ext.reverse ++ '.' :: stem.reverse).dropWhile (fun x => decide (x ≠ '.')) = '.' :: stem.reverse := by
      rw [List.dropWhile_append_of_pos hx, List.dropWhile_cons, if_neg (by simp)]
    simp only [hr]
    rw [hdw]
    simp only
    rw [if_pos, takeWhile_app_ne _ _ _ hx, List.takeWhile_cons, if_neg (by simp)]
    · simp
    · obtain ⟨x, hx, hn⟩ := h2
      rw [List.any_eq_true]
      exact ⟨x, List.mem_reverse.2 hx, by simpa using hn⟩
  have hroot : root (dir ++ stem ++ '.' :: ext) = dir ++ stem := by
    unfold root
    rw [he, List.take_left' (by simp; omega)]
  unfold toMannBox
  simp only [hroot]

example : toMannBox toy (fun _ => none) exBox (some "a.d/Turb.bts".toList) none none false =
    toMannBox toy (fun _ => none) exBox (some "a.d/Turb.bts".toList) (some "a.d/Turb".toList) none false :=
  C158_base toy _ exBox "a.d/".toList "Turb".toList "bts".toList none false (by decide) (by decide) (by decide) (by decide)
    (.inr ⟨"a.d".toList, rfl⟩)

/-- **C159** With `removeAllUMean` the mean in time of the first component is zero at every point; the
constant is then ignored. -/
theorem C159 (b : Box) (rc : Option ℚ) (iy iz : Nat) (h : 0 < b.nt) :
    ((List.range b.nt).map (fun it => b.u 0 it iy iz - removed b rc true iy iz)).sum / b.nt = 0 := by
  have hs : ∀ (l : List Nat) (c : ℚ), (l.map (fun it => b.u 0 it iy iz - c)).sum = (l.map (fun it => b.u 0 it iy iz)).sum - l.length * c := by
    intro l c
    induction l with
    | nil => simp
    | cons x t ih =>
      simp only [List.map_cons, List.sum_cons, List.length_cons, ih]
      push_cast
      ring
  rw [hs]
  have : (b.nt : ℚ) ≠ 0 := by exact_mod_cast (by omega : b.nt ≠ 0)
  simp only [removed, if_true, List.length_range]
  field_simp
  ring

example : ((List.range 2).map (fun it => exBox.u 0 it 0 1 - removed exBox (some 7) true 0 1)).sum / (2 : Nat) = 0 ∧
    removed exBox (some 7) true 0 1 = 3 := ⟨C159 exBox (some 7) 0 1 (by decide), by decide +kernel⟩

/-- **C160** `fromMannBox` of three fields of the same dimensions, with as many coordinates, gives these
fields as components, `addU` being added to the first one; the times are multiples of `dx/U`; the reference
height is the height closest to the middle and the reference speed the mean there. -/
theorem C160 (b : Box) (u v w : Arr) (dx U : ℚ) (y z : List ℚ) (addU : Option ℚ) (nt ny nz : Nat)
    (hu : u.Dims nt ny nz) (hv : v.Dims nt ny nz) (hw : w.Dims nt ny nz) (h0 : 0 < nt ∧ 0 < ny ∧ 0 < nz)
    (hx : dx ≠ 0) (hU : U ≠ 0) (hy : y.length = ny) (hz : z.length = nz) (ho : ∀ a c, y.head? = some a → y.getLast? = some c → a ≤ c) :
    ∃ b' iy iz, fromMannBox b u v w dx U y z addU = .ok b' ∧ b'.nt = nt ∧ b'.ny = ny ∧ b'.nz = nz ∧
      (∀ it iy iz, it < nt → iy < ny → iz < nz →
        b'.u 0 it iy iz = u.f it iy iz + addU.getD 0 ∧ b'.u 1 it iy iz = v.f it iy iz ∧ b'.u 2 it iy iz = w.f it iy iz) ∧
      b'.y = y ∧ b'.z = z ∧ b'.t = (List.range nt).map (fun i : Nat => (i : ℚ) * (dx / U)) ∧
      Middle y iy ∧ Middle z iz ∧ b'.zRef = z[iz]? ∧
      b'.uRef = some (((List.range nt).map (fun it => b'.u 0 it iy iz)).sum / nt) := by
  obtain ⟨b', iy, iz, h1, h2, h3, h4, h5, h6, h7, h8, -, h9⟩ := fromMannBox_ok b u v w dx U y z addU nt ny nz hu hv hw h0 hx hU hy hz ho
  exact ⟨b', iy, iz, h1, h2, h3, h4, h5, h6, h7, h8, h9⟩

/-- a field of two time steps, one y and two z -/
def exArr (k : Nat) : Arr := ⟨2, 1, 2, exBox.u k⟩

example : ∃ b' iy iz, fromMannBox exBox (exArr 0) (exArr 1) (exArr 2) 5 10 [0] [10, 20] (some 8) = .ok b' ∧ b'.nt = 2 ∧ b'.ny = 1 ∧ b'.nz = 2 ∧
      (∀ it iy iz, it < 2 → iy < 1 → iz < 2 →
        b'.u 0 it iy iz = (exArr 0).f it iy iz + (some 8).getD 0 ∧ b'.u 1 it iy iz = (exArr 1).f it iy iz ∧ b'.u 2 it iy iz = (exArr 2).f it iy iz) ∧
      b'.y = [0] ∧ b'.z = [10, 20] ∧ b'.t = (List.range 2).map (fun i : Nat => (i : ℚ) * (5 / 10)) ∧
      Middle [0] iy ∧ Middle [10, 20] iz ∧ b'.zRef = ([10, 20] : List ℚ)[iz]? ∧
      b'.uRef = some (((List.range 2).map (fun it => b'.u 0 it iy iz)).sum / (2 : Nat)) :=
  C160 exBox (exArr 0) (exArr 1) (exArr 2) 5 10 [0] [10, 20] (some 8) 2 1 2 ⟨rfl, rfl, rfl⟩ ⟨rfl, rfl, rfl⟩ ⟨rfl, rfl, rfl⟩
    ⟨by decide, by decide, by decide⟩ (by norm_num) (by norm_num) rfl rfl
    (by intro a c ha hc; cases ha; cases hc; exact le_refl _)

/-- **C161** A box converted to Mann boxes, which are read by their names and converted back with the same
coordinates and the same constant, has the velocities that the storage keeps; its times are those of the
box when these are multiples of `dx/U`. -/
theorem C161 (st : Store ℚ) (rd : ℚ → ℚ) (hst : Keeps st rd) (fs : FS) (b b0 : Box) (hb : NonEmpty b) (filename : Option Str) (base : Str)
    (c : Option ℚ) (dx U : ℚ) (hx : dx ≠ 0) (hU : U ≠ 0) (hy : b.y.length = b.ny) (hz : b.z.length = b.nz)
    (ho : ∀ a c, b.y.head? = some a → b.y.getLast? = some c → a ≤ c) :
    ∃ fs' lu lv lw b', toMannBox st fs b filename (some base) c false = .ok fs' ∧
      Mann.read st fs' (fileOf base b 'u') none = .ok lu ∧ Mann.read st fs' (fileOf base b 'v') none = .ok lv ∧
      Mann.read st fs' (fileOf base b 'w') none = .ok lw ∧
      fromMannBox b0 (arr b.nt b.ny b.nz lu) (arr b.nt b.ny b.nz lv) (arr b.nt b.ny b.nz lw) dx U b.y b.z c = .ok b' ∧
      b'.nt = b.nt ∧ b'.ny = b.ny ∧ b'.nz = b.nz ∧ b'.y = b.y ∧ b'.z = b.z ∧
      (b.t = (List.range b.nt).map (fun i : Nat => (i : ℚ) * (dx / U)) → b'.t = b.t) ∧
      ∀ it iy iz, it < b.nt → iy < b.ny → iz < b.nz →
        b'.u 0 it iy iz = rd (b.u 0 it iy iz - c.getD 0) + c.getD 0 ∧ b'.u 1 it iy iz = rd (b.u 1 it iy iz) ∧
        b'.u 2 it iy iz = rd (b.u 2 it iy iz) := by
  obtain ⟨fs', h, -, hu, hv, hw⟩ := saved st rd hst fs b hb filename base c false
  obtain ⟨b', -, -, h1, h2, h3, h4, h5, h6, h7, h8, -⟩ := fromMannBox_ok b0 (arr b.nt b.ny b.nz _) (arr b.nt b.ny b.nz _) (arr b.nt b.ny b.nz _)
    dx U b.y b.z c b.nt b.ny b.nz ⟨rfl, rfl, rfl⟩ ⟨rfl, rfl, rfl⟩ ⟨rfl, rfl, rfl⟩ hb hx hU hy hz ho
  refine ⟨fs', _, _, _, b', h, hu, hv, hw, h1, h2, h3, h4, h6, h7, fun e => by rw [h8, e], ?_⟩
  intro it iy iz g1 g2 g3
  obtain ⟨k1, k2, k3⟩ := h5 it iy iz g1 g2 g3
  rw [k1, k2, k3, arr_planes _ _ _ _ _ _ _ g1 g2 g3, arr_planes _ _ _ _ _ _ _ g1 g2 g3, arr_planes _ _ _ _ _ _ _ g1 g2 g3]
  exact ⟨rfl, rfl, rfl⟩

example : ∃ fs' lu lv lw b', toMannBox toy (fun _ => none) exBox none (some "T".toList) (some 8) false = .ok fs' ∧
      Mann.read toy fs' (fileOf "T".toList exBox 'u') none = .ok lu ∧ Mann.read toy fs' (fileOf "T".toList exBox 'v') none = .ok lv ∧
      Mann.read toy fs' (fileOf "T".toList exBox 'w') none = .ok lw ∧
      fromMannBox exBox (arr 2 1 2 lu) (arr 2 1 2 lv) (arr 2 1 2 lw) 5 5 [0] [10, 20] (some 8) = .ok b' ∧
      b'.nt = 2 ∧ b'.ny = 1 ∧ b'.nz = 2 ∧ b'.y = [0] ∧ b'.z = [10, 20] ∧
      (exBox.t = (List.range 2).map (fun i : Nat => (i : ℚ) * (5 / 5)) → b'.t = exBox.t) ∧
      ∀ it iy iz, it < 2 → iy < 1 → iz < 2 →
        b'.u 0 it iy iz = toyRd (exBox.u 0 it iy iz - (some 8).getD 0) + (some 8).getD 0 ∧ b'.u 1 it iy iz = toyRd (exBox.u 1 it iy iz) ∧
        b'.u 2 it iy iz = toyRd (exBox.u 2 it iy iz) :=
  C161 toy toyRd exKeeps (fun _ => none) exBox exBox ⟨by decide, by decide, by decide⟩ none "T".toList (some 8) 5 5 (by norm_num) (by norm_num)
    rfl rfl (by intro a c ha hc; cases ha; cases hc; exact le_refl _)

/-- a field with the same numbers at both times -/
def exFlat : Arr := ⟨1, 1, 2, fun _ _ iz => iz⟩

/-- **C162** fails: a second component of one time step is taken for all of them. -/
theorem C162_fails : ∃ b', fromMannBox exBox (exArr 0) exFlat (exArr 2) 5 10 [0] [10, 20] none = .ok b' ∧ b'.nt = 2 ∧ exFlat.nt = 1 ∧
    b'.u 1 0 0 1 = 1 ∧ b'.u 1 1 0 1 = 1 := by
  have h : ((fromMannBox exBox (exArr 0) exFlat (exArr 2) 5 10 [0] [10, 20] none).toOption.map
      (fun b' => [(b'.nt : ℚ), b'.u 1 0 0 1, b'.u 1 1 0 1])) = some [2, 1, 1] := by decide +kernel
  cases hb : fromMannBox exBox (exArr 0) exFlat (exArr 2) 5 10 [0] [10, 20] none with
  | error e => rw [hb] at h; cases h
  | ok b' =>
    rw [hb] at h
    have h' : [(b'.nt : ℚ), b'.u 1 0 0 1, b'.u 1 1 0 1] = [2, 1, 1] := Option.some.inj h
    simp only [List.cons.injEq, and_true] at h'
    exact ⟨b', rfl, by exact_mod_cast h'.1, rfl, h'.2.1, h'.2.2⟩

/-- **C162**, as far as it holds: a second or third component which has another number of points in a
direction, and not one, is refused. -/
theorem C162_partial (b : Box) (u v w : Arr) (dx U : ℚ) (y z : List ℚ) (addU : Option ℚ) (hx : dx ≠ 0) (hU : U ≠ 0) (a c : ℚ)
    (ha : y.head? = some a) (hc : y.getLast? = some c) (ho : a ≤ c)
    (h : ∃ q, (q = v ∨ q = w) ∧ ((q.nt ≠ u.nt ∧ q.nt ≠ 1) ∨ (q.ny ≠ u.ny ∧ q.ny ≠ 1) ∨ (q.nz ≠ u.nz ∧ q.nz ≠ 1))) :
    fromMannBox b u v w dx U y z addU = .error .value := by
  have hd : ¬ (U = 0 ∨ dx / U = 0) := by
    rintro (h | h)
    · exact hU h
    · exact div_ne_zero hx hU h
  unfold fromMannBox
  rw [if_neg hd]
  simp only [times u.nt dx U hx hU, List.length_map, List.length_range]
  rw [ha, hc]
  simp only
  rw [if_neg (not_lt.2 ho)]
  cases h1 : fit u.nt u.ny u.nz u with
  | error e => rw [fit_error _ _ _ _ _ h1]; rfl
  | ok f =>
    rw [ok_bind]
    cases h2 : fit u.nt u.ny u.nz v with
    | error e => rw [fit_error _ _ _ _ _ h2]; rfl
    | ok f' =>
      rw [ok_bind]
      cases h3 : fit u.nt u.ny u.nz w with
      | error e => rw [fit_error _ _ _ _ _ h3]; rfl
      | ok f'' =>
        exfalso
        obtain ⟨q, rfl | rfl, hq⟩ := h
        · rw [fit_bad _ _ _ _ hq] at h2
          cases h2
        · rw [fit_bad _ _ _ _ hq] at h3
          cases h3

example : fromMannBox exBox (exArr 0) (exArr 1) ⟨3, 1, 2, exBox.u 2⟩ 5 10 [0] [10, 20] none = .error .value :=
  C162_partial _ _ _ _ _ _ _ _ _ (by norm_num) (by norm_num) 0 0 rfl rfl (le_refl _) ⟨_, .inr rfl, .inl ⟨by decide, by decide⟩⟩

/-- **C163** A field given with `y` going down, or with no time between its planes, is refused. -/
theorem C163 (b : Box) (u v w : Arr) (dx U : ℚ) (y z : List ℚ) (addU : Option ℚ)
    (h : (∃ a c, y.head? = some a ∧ y.getLast? = some c ∧ c < a) ∨ dx = 0 ∨ U = 0) :
    ∃ e, fromMannBox b u v w dx U y z addU = .error e := by
  unfold fromMannBox
  by_cases hd : U = 0 ∨ dx / U = 0
  · rw [if_pos hd]
    exact ⟨_, rfl⟩
  · rw [if_neg hd]
    rcases h with ⟨a, c, ha, hc, hac⟩ | h | h
    · simp only
      rw [ha, hc]
      simp only
      rw [if_pos hac]
      exact ⟨_, rfl⟩
    · exact absurd (.inr (by rw [h, zero_div])) hd
    · exact absurd (.inl h) hd

example : ∃ e, fromMannBox exBox (exArr 0) (exArr 1) (exArr 2) 5 10 [5, -5] [10, 20] none = .error e :=
  C163 _ _ _ _ _ _ _ _ _ (.inl ⟨5, -5, rfl, rfl, by norm_num⟩)

/-- a box with a tower -/
def exTower : Box := { exBox with tower := some (1, fun _ _ _ => 3) }

/-- **C164** fails: the tower of the box read before stays. -/
theorem C164_fails : ∃ b', fromMannBox exTower (exArr 0) (exArr 1) (exArr 2) 5 10 [0] [10, 20] none = .ok b' ∧ b'.tower.isSome = true := by
  obtain ⟨b', -, -, h, -, -, -, -, -, -, -, ht, -⟩ := fromMannBox_ok exTower (exArr 0) (exArr 1) (exArr 2) 5 10 [0] [10, 20] none 2 1 2
    ⟨rfl, rfl, rfl⟩ ⟨rfl, rfl, rfl⟩ ⟨rfl, rfl, rfl⟩ ⟨by decide, by decide, by decide⟩ (by norm_num) (by norm_num) rfl rfl
    (by intro a c ha hc; cases ha; cases hc; exact le_refl _)
  exact ⟨b', h, by rw [ht]; rfl⟩

/-- **C164**, as far as it holds: the result depends on the box read before only by its tower. -/
theorem C164_partial (b b0 : Box) (u v w : Arr) (dx U : ℚ) (y z : List ℚ) (addU : Option ℚ) (h : b.tower = b0.tower) :
    fromMannBox b u v w dx U y z addU = fromMannBox b0 u v w dx U y z addU := by
  unfold fromMannBox
  simp only [h]

example : fromMannBox exBox (exArr 0) (exArr 1) (exArr 2) 5 10 [0] [10, 20] none =
    fromMannBox { exBox with nt := 7, zRef := some 3 } (exArr 0) (exArr 1) (exArr 2) 5 10 [0] [10, 20] none :=
  C164_partial _ _ _ _ _ _ _ _ _ _ rfl

/-- **C165** The file of probes has a column of times and, for every pair of a probe `y` and a probe `z`, the
three components at the point of the grid closest to them, in the order of the probes. -/
theorem C165 (fmt0 : ℚ → Str) (b : Box) (ys zs : List ℚ) (hb : NonEmpty b) (hy : b.y.length = b.ny) (hz : b.z.length = b.nz) :
    ∃ T, writeProbes fmt0 b ys zs = some T ∧ T.cols.length = 1 + 3 * (ys.length * zs.length) ∧
      T.cols[0]? = some "Time_[s]".toList ∧ T.rows.length = b.nt ∧
      (∀ (it : Nat) r, T.rows[it]? = some r → r.length = T.cols.length ∧ r[0]? = some (b.t.getD it 0)) ∧
      ∀ (i j : Nat) y z, ys[i]? = some y → zs[j]? = some z → ∃ iy iz, Closest b.y y iy ∧ Closest b.z z iz ∧
        ∀ k c, k < 3 → ['u', 'v', 'w'][k]? = some c →
          T.cols[1 + (3 * (i * zs.length + j) + k)]? =
            some (c :: ("_y".toList ++ fmt0 (b.y.getD iy 0) ++ "_z".toList ++ fmt0 (b.z.getD iz 0) ++ "_[m/s]".toList)) ∧
          ∀ (it : Nat) r, T.rows[it]? = some r → r[1 + (3 * (i * zs.length + j) + k)]? = some (b.u k it iy iz) := by
  have hp := probe_ok fmt0 b hb hy hz
  have hl : ∀ y z, ((probe fmt0 b y z).getD []).length = 3 := by
    intro y z
    obtain ⟨iy, iz, -, -, h⟩ := hp y z
    rw [h]
    rfl
  have hm := mapM_opt (fun p : ℚ × ℚ => probe fmt0 b p.1 p.2) (fun p => (probe fmt0 b p.1 p.2).getD []) (ys.flatMap (fun y => zs.map (fun z => (y, z))))
    (by
      intro p _
      obtain ⟨iy, iz, -, -, h⟩ := hp p.1 p.2
      rw [h]
      rfl)
  have hlen : ((ys.flatMap (fun y => zs.map (fun z => (y, z)))).map (fun p => (probe fmt0 b p.1 p.2).getD [])).flatten.length =
      3 * (ys.length * zs.length) := by
    rw [List.length_flatten, List.map_map]
    have : (List.length ∘ fun p : ℚ × ℚ => (probe fmt0 b p.1 p.2).getD []) = fun _ => 3 := by
      funext p
      exact hl p.1 p.2
    rw [this]
    simp
    ring
  refine ⟨_, by
    unfold writeProbes
    rw [hm]
    rfl, ?_, rfl, by simp, ?_, ?_⟩
  · simp only [List.length_cons, List.length_map, hlen]
    omega
  · intro it r hr
    simp only [List.getElem?_map, Option.map_eq_some_iff] at hr
    obtain ⟨it', hit, rfl⟩ := hr
    have : it' = it := by
      have := (List.getElem?_eq_some_iff.1 hit)
      simpa using this.2.symm
    subst this
    exact ⟨by simp only [List.length_cons, List.length_map], rfl⟩
  · intro i j y z hi hj
    obtain ⟨iy, iz, h1, h2, h⟩ := hp y z
    refine ⟨iy, iz, h1, h2, ?_⟩
    intro k c hk hc
    have hat : ((ys.flatMap (fun y => zs.map (fun z => (y, z)))).map (fun p => (probe fmt0 b p.1 p.2).getD [])).flatten[3 * (i * zs.length + j) + k]? =
        some (c :: ("_y".toList ++ fmt0 (b.y.getD iy 0) ++ "_z".toList ++ fmt0 (b.z.getD iz 0) ++ "_[m/s]".toList), fun it => b.u k it iy iz) := by
      rw [flatten_at 3 _ (by
        intro x hx
        obtain ⟨p, -, rfl⟩ := List.mem_map.1 hx
        exact hl p.1 p.2) _ k hk, List.getElem?_map, pairs_at ys zs i j y z hi hj]
      simp only [Option.map_some, Option.bind_some, h, Option.getD_some]
      have hk' : k = 0 ∨ k = 1 ∨ k = 2 := by omega
      rcases hk' with rfl | rfl | rfl <;> (obtain rfl := Option.some.inj hc; rfl)
    refine ⟨?_, ?_⟩
    · rw [Nat.add_comm 1, List.getElem?_cons_succ, List.getElem?_map, hat]
      rfl
    · intro it r hr
      simp only [List.getElem?_map, Option.map_eq_some_iff] at hr
      obtain ⟨it', hit, rfl⟩ := hr
      have : it' = it := by
        have := (List.getElem?_eq_some_iff.1 hit)
        simpa using this.2.symm
      subst this
      rw [Nat.add_comm 1, List.getElem?_cons_succ, List.getElem?_map, hat]
      rfl

/-- the whole part of a number -/
def exFmt (x : ℚ) : Str := FastLine.showInt ⌊x⌋

example : (writeProbes exFmt exBox [1] [12, 18]).map Table.cols = some ["Time_[s]".toList, "u_y0_z10_[m/s]".toList, "v_y0_z10_[m/s]".toList,
      "w_y0_z10_[m/s]".toList, "u_y0_z20_[m/s]".toList, "v_y0_z20_[m/s]".toList, "w_y0_z20_[m/s]".toList] ∧
    (writeProbes exFmt exBox [1] [12, 18]).map Table.rows = some [[0, 0, 10, 20, 1, 11, 21], [1, 4, 14, 24, 5, 15, 25]] :=
  ⟨by decide +kernel, by decide +kernel⟩

/-- two y, a quarter of a metre apart -/
def exFine : Box := { exBox with ny := 2, nz := 1, y := [0, 1 / 4], z := [10] }

/-- **C166** fails: with any text of numbers which is the same for 0 and 1/4, as that of `'{:.0f}'`, the columns
of two probes have the same names. -/
theorem C166_fails (fmt0 : ℚ → Str) (h : fmt0 0 = fmt0 (1 / 4)) : ∃ T, writeProbes fmt0 exFine [0, 1 / 4] [10] = some T ∧ ¬ T.cols.Nodup := by
  obtain ⟨T, hT, -, -, -, -, hc⟩ := C165 fmt0 exFine [0, 1 / 4] [10] ⟨by decide, by decide, by decide⟩ rfl rfl
  refine ⟨T, hT, ?_⟩
  obtain ⟨iy, iz, h1, h2, e1⟩ := hc 0 0 0 10 rfl rfl
  obtain ⟨iy', iz', h1', h2', e2⟩ := hc 1 0 (1 / 4) 10 rfl rfl
  have g1 : fmt0 (exFine.y.getD iy 0) = fmt0 0 := by
    have := h1.lt
    have h' : iy = 0 ∨ iy = 1 := by simp [exFine] at this; omega
    rcases h' with rfl | rfl
    · rfl
    · exact h.symm
  have g2 : fmt0 (exFine.y.getD iy' 0) = fmt0 0 := by
    have := h1'.lt
    have h' : iy' = 0 ∨ iy' = 1 := by simp [exFine] at this; omega
    rcases h' with rfl | rfl
    · rfl
    · exact h.symm
  have hz : iz = iz' := h2.unique h2'
  have a1 := (e1 0 'u' (by decide) rfl).1
  have a2 := (e2 0 'u' (by decide) rfl).1
  rw [g1] at a1
  rw [g2, ← hz] at a2
  intro hn
  have b1 := (List.getElem?_eq_some_iff.1 a1)
  have b2 := (List.getElem?_eq_some_iff.1 a2)
  obtain ⟨l1, b1⟩ := b1
  obtain ⟨l2, b2⟩ := b2
  have := (List.Nodup.getElem_inj_iff hn).1 (b1.trans b2.symm)
  simp at this

example : exFmt 0 = exFmt (1 / 4) := by decide +kernel

/-- **C166**, as far as it holds: when the points of the grid closest to two different probes have coordinates
with different texts, which have no underscore, all names are different. -/
theorem C166_partial (fmt0 : ℚ → Str) (b : Box) (ys zs : List ℚ) (hb : NonEmpty b) (hy : b.y.length = b.ny) (hz : b.z.length = b.nz)
    (hf : ∀ x, '_' ∉ fmt0 x)
    (h1 : ∀ (i i' : Nat) y y', ys[i]? = some y → ys[i']? = some y' → i ≠ i' → ∀ iy iy', Closest b.y y iy → Closest b.y y' iy' →
      fmt0 (b.y.getD iy 0) ≠ fmt0 (b.y.getD iy' 0))
    (h2 : ∀ (j j' : Nat) z z', zs[j]? = some z → zs[j']? = some z' → j ≠ j' → ∀ iz iz', Closest b.z z iz → Closest b.z z' iz' →
      fmt0 (b.z.getD iz 0) ≠ fmt0 (b.z.getD iz' 0)) :
    ∃ T, writeProbes fmt0 b ys zs = some T ∧ T.cols.Nodup := by
  obtain ⟨T, hT, hlen, h0, -, -, hc⟩ := C165 fmt0 b ys zs hb hy hz
  refine ⟨T, hT, ?_⟩
  have hidx : ∀ n, n + 1 < T.cols.length → ∃ i j k y z c iy iz, n = 3 * (i * zs.length + j) + k ∧ ys[i]? = some y ∧ zs[j]? = some z ∧
      k < 3 ∧ ['u', 'v', 'w'][k]? = some c ∧ Closest b.y y iy ∧ Closest b.z z iz ∧
      T.cols[n + 1]? = some (c :: ("_y".toList ++ fmt0 (b.y.getD iy 0) ++ "_z".toList ++ fmt0 (b.z.getD iz 0) ++ "_[m/s]".toList)) := by
    intro n hn
    rw [hlen] at hn
    have hm : n / 3 < ys.length * zs.length := by omega
    have hzl : 0 < zs.length := by
      rcases Nat.eq_zero_or_pos zs.length with h | h
      · rw [h] at hm; simp at hm
      · exact h
    have hi : n / 3 / zs.length < ys.length := by
      rw [Nat.div_lt_iff_lt_mul hzl]
      exact hm
    have hj : n / 3 % zs.length < zs.length := Nat.mod_lt _ hzl
    have hk : n % 3 < 3 := Nat.mod_lt _ (by decide)
    have hn' : n = 3 * (n / 3 / zs.length * zs.length + n / 3 % zs.length) + n % 3 := by
      rw [Nat.mul_comm (n / 3 / zs.length), Nat.div_add_mod, Nat.div_add_mod]
    obtain ⟨iy, iz, c1, c2, hcc⟩ := hc (n / 3 / zs.length) (n / 3 % zs.length) _ _ (List.getElem?_eq_getElem hi) (List.getElem?_eq_getElem hj)
    obtain ⟨c, hcn⟩ : ∃ c, ['u', 'v', 'w'][n % 3]? = some c := by
      have : n % 3 = 0 ∨ n % 3 = 1 ∨ n % 3 = 2 := by omega
      rcases this with h | h | h <;> rw [h] <;> exact ⟨_, rfl⟩
    refine ⟨_, _, _, _, _, c, iy, iz, hn', List.getElem?_eq_getElem hi, List.getElem?_eq_getElem hj, hk, hcn, c1, c2, ?_⟩
    have := (hcc _ c hk hcn).1
    rw [← hn', Nat.add_comm 1] at this
    exact this
  have hsep : ∀ (a c a' c' : Str), '_' ∉ a → '_' ∉ c → '_' ∉ a' → '_' ∉ c' →
      "_y".toList ++ a ++ "_z".toList ++ c ++ "_[m/s]".toList = "_y".toList ++ a' ++ "_z".toList ++ c' ++ "_[m/s]".toList → a = a' ∧ c = c' := by
    intro a c a' c' ha hc ha' hc' h
    have key : ∀ (p q p' q' : Str), '_' ∉ p → '_' ∉ p' → p ++ '_' :: q = p' ++ '_' :: q' → p = p' ∧ q = q' := by
      intro p
      induction p with
      | nil =>
        intro q p' q' _ hp' e
        cases p' with
        | nil => simpa using e
        | cons x t =>
          simp only [List.nil_append, List.cons_append, List.cons.injEq] at e
          exact absurd (by rw [← e.1]; simp) hp'
      | cons x t ih =>
        intro q p' q' hp hp' e
        cases p' with
        | nil =>
          simp only [List.nil_append, List.cons_append, List.cons.injEq] at e
          exact absurd (by rw [e.1]; simp) hp
        | cons x' t' =>
          simp only [List.cons_append, List.cons.injEq] at e
          obtain ⟨r1, r2⟩ := ih q t' q' (fun hm => hp (by simp [hm])) (fun hm => hp' (by simp [hm])) e.2
          exact ⟨by rw [e.1, r1], r2⟩
    have h3 : '_' :: 'y' :: (a ++ '_' :: ('z' :: (c ++ '_' :: "[m/s]".toList))) = '_' :: 'y' :: (a' ++ '_' :: ('z' :: (c' ++ '_' :: "[m/s]".toList))) := by
      simpa using h
    obtain ⟨r1, r2⟩ := key _ _ _ _ ha ha' (List.cons.inj (List.cons.inj h3).2).2
    exact ⟨r1, (key _ _ _ _ hc hc' (List.cons.inj r2).2).1⟩
  rw [List.nodup_iff_injective_get]
  have main : ∀ n m : Nat, n < T.cols.length → m < T.cols.length → T.cols[n]? = T.cols[m]? → n = m := by
    intro n m hn hm e
    cases n with
    | zero =>
      cases m with
      | zero => rfl
      | succ m =>
        obtain ⟨i, j, k, y, z, c, iy, iz, -, -, -, -, hc, -, -, hcol⟩ := hidx m hm
        rw [h0, hcol] at e
        have := congrArg (fun l => l.headD 'T') (Option.some.inj e)
        simp only [List.headD_cons] at this
        have hk : k = 0 ∨ k = 1 ∨ k = 2 ∨ 3 ≤ k := by omega
        rcases hk with rfl | rfl | rfl | hk
        · cases hc; exact absurd this (by decide)
        · cases hc; exact absurd this (by decide)
        · cases hc; exact absurd this (by decide)
        · rw [List.getElem?_eq_none (by simpa using hk)] at hc; cases hc
    | succ n =>
      cases m with
      | zero =>
        obtain ⟨i, j, k, y, z, c, iy, iz, -, -, -, -, hc, -, -, hcol⟩ := hidx n hn
        rw [h0, hcol] at e
        have := congrArg (fun l => l.headD 'T') (Option.some.inj e)
        simp only [List.headD_cons] at this
        have hk : k = 0 ∨ k = 1 ∨ k = 2 ∨ 3 ≤ k := by omega
        rcases hk with rfl | rfl | rfl | hk
        · cases hc; exact absurd this (by decide)
        · cases hc; exact absurd this (by decide)
        · cases hc; exact absurd this (by decide)
        · rw [List.getElem?_eq_none (by simpa using hk)] at hc; cases hc
      | succ m =>
        obtain ⟨i, j, k, y, z, c, iy, iz, en, hi, hj, hk, hc, c1, c2, hcol⟩ := hidx n hn
        obtain ⟨i', j', k', y', z', c', iy', iz', em, hi', hj', hk', hc', c1', c2', hcol'⟩ := hidx m hm
        rw [hcol, hcol'] at e
        obtain ⟨r1, r2⟩ := List.cons.inj (Option.some.inj e)
        obtain ⟨s1, s2⟩ := hsep _ _ _ _ (hf _) (hf _) (hf _) (hf _) r2
        have ei : i = i' := by
          by_contra hne
          exact h1 i i' y y' hi hi' hne iy iy' c1 c1' s1
        have ej : j = j' := by
          by_contra hne
          exact h2 j j' z z' hj hj' hne iz iz' c2 c2' s2
        have ek : k = k' := by
          subst r1
          have q : k = 0 ∨ k = 1 ∨ k = 2 := by omega
          have q' : k' = 0 ∨ k' = 1 ∨ k' = 2 := by omega
          rcases q with rfl | rfl | rfl <;> rcases q' with rfl | rfl | rfl <;> first | rfl | (cases hc; cases hc')
        rw [en, em, ei, ej, ek]
  intro x x' hx
  refine Fin.ext (main x x' x.2 x'.2 ?_)
  rw [List.getElem?_eq_getElem x.2, List.getElem?_eq_getElem x'.2]
  exact congrArg some hx

example : ∃ T, writeProbes exFmt exBox [1] [12, 18] = some T ∧ T.cols.Nodup := by
  refine C166_partial exFmt exBox [1] [12, 18] ⟨by decide, by decide, by decide⟩ rfl rfl ?_ ?_ ?_
  · intro x hx
    unfold exFmt FastLine.showInt at hx
    split at hx
    · have := (toDigits_isDigit _).2 _ hx
      revert this
      decide
    · rcases List.mem_cons.1 hx with hx | hx
      · revert hx; decide
      · have := (toDigits_isDigit _).2 _ hx
        revert this
        decide
  · intro i i' y y' hi hi' hne
    have a := (List.getElem?_eq_some_iff.1 hi).1
    have b := (List.getElem?_eq_some_iff.1 hi').1
    simp at a b
    omega
  · intro j j' z z' hj hj' hne iz iz' hc hc'
    have c12 : Closest exBox.z 12 0 := ⟨10, rfl, by
      intro j x hx
      have := (List.getElem?_eq_some_iff.1 hx).1
      have h' : j = 0 ∨ j = 1 := by simp [exBox] at this; omega
      rcases h' with rfl | rfl
      · cases hx; simp
      · cases hx; norm_num [abs]⟩
    have c18 : Closest exBox.z 18 1 := ⟨20, rfl, by
      intro j x hx
      have := (List.getElem?_eq_some_iff.1 hx).1
      have h' : j = 0 ∨ j = 1 := by simp [exBox] at this; omega
      rcases h' with rfl | rfl
      · cases hx; norm_num [abs]
      · cases hx; simp⟩
    have a := (List.getElem?_eq_some_iff.1 hj).1
    have b := (List.getElem?_eq_some_iff.1 hj').1
    simp at a b
    have h1 : j = 0 ∨ j = 1 := by omega
    have h2 : j' = 0 ∨ j' = 1 := by omega
    rcases h1 with rfl | rfl <;> rcases h2 with rfl | rfl
    · exact absurd rfl hne
    · cases hj; cases hj'
      rw [hc.unique c12, hc'.unique c18]
      decide +kernel
    · cases hj; cases hj'
      rw [hc.unique c18, hc'.unique c12]
      decide +kernel
    · exact absurd rfl hne

end Verif.MannTurb
