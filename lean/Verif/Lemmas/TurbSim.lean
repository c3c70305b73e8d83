import Verif.Model.TurbSim
import Verif.Lemmas.FastBin
/-! # Lemmas on the TurbSim byte layout -/
namespace Verif.TurbSim
open Verif.Py Verif.Mann Verif.FastBin

theorem length_flatMap_range (n c : Nat) (f : Nat → List α) (h : ∀ i, i < n → (f i).length = c) :
    ((List.range n).flatMap f).length = c * n := by
  rw [List.flatMap_def, flatten_length_const c]
  · simp
  · intro l hl
    obtain ⟨i, hi, rfl⟩ := List.mem_map.1 hl
    exact h i (List.mem_range.1 hi)

theorem getElem?_flatMap_range (n c i j : Nat) (f : Nat → List α)
    (h : ∀ i, i < n → (f i).length = c) (hi : i < n) (hj : j < c) :
    ((List.range n).flatMap f)[c * i + j]? = (f i)[j]? := by
  induction n generalizing i f with
  | zero => omega
  | succ n ih =>
    rw [List.range_succ_eq_map, List.flatMap_cons, List.flatMap_map]
    cases i with
    | zero =>
      rw [Nat.mul_zero, Nat.zero_add, List.getElem?_append_left (by rw [h 0 (by omega)]; exact hj)]
    | succ i =>
      rw [List.getElem?_append_right (by rw [h 0 (by omega), Nat.mul_succ]; omega), h 0 (by omega),
        show c * (i + 1) + j - c = c * i + j by rw [Nat.mul_succ]; omega]
      exact ih i (fun i => f (i + 1)) (fun k hk => h (k + 1) (by omega)) (by omega)

theorem enc16_ok (x : Int) (h : -32768 ≤ x ∧ x < 32768) :
    (enc16 x).length = 2 ∧ unpackInt 2 (enc16 x) = x := by
  have : packInt 2 x = some (enc16 x) := by
    unfold packInt
    exact if_pos (by simpa using h)
  obtain ⟨h1, h2⟩ := unpackInt_packInt 2 (by decide) x _ this
  exact ⟨h2, h1⟩

theorem readInts_enc (l : List Int) (n : Nat) (hl : l.length = n)
    (h : ∀ x ∈ l, -32768 ≤ x ∧ x < 32768) (rest : Bytes) :
    readInts n (l.flatMap enc16 ++ rest) = .ok l ∧ (l.flatMap enc16 ++ rest).drop (2 * n) = rest := by
  have h2 : ∀ b ∈ l.map enc16, b.length = 2 := by
    intro b hb
    obtain ⟨x, hx, rfl⟩ := List.mem_map.1 hb
    exact (enc16_ok x (h x hx)).1
  have hlen : (l.flatMap enc16).length = 2 * n := by
    rw [List.flatMap_def, flatten_length_const 2 _ h2, List.length_map, hl]
  refine ⟨?_, List.drop_left' hlen⟩
  unfold readInts
  rw [List.take_left' hlen]
  simp only
  rw [if_pos hlen]
  have := rowsOf_flatten 2 (l.map enc16) h2 []
  rw [List.append_nil, List.length_map, hl] at this
  rw [List.flatMap_def, this, List.map_map]
  congr 1
  conv => rhs; rw [← List.map_id l]
  exact List.map_congr_left (fun x hx => (enc16_ok x (h x hx)).2)

theorem readFrames_enc (ng nw : Nat) (its : List Nat) (g w : Nat → List Int)
    (hg : ∀ it, (g it).length = ng) (hw : ∀ it, (w it).length = nw)
    (rg : ∀ it, ∀ x ∈ g it, -32768 ≤ x ∧ x < 32768) (rw' : ∀ it, ∀ x ∈ w it, -32768 ≤ x ∧ x < 32768) :
    readFrames ng nw its.length (its.flatMap (fun it => (g it).flatMap enc16 ++ (w it).flatMap enc16))
      = .ok (its.map (fun it => (g it, w it))) := by
  induction its with
  | nil => rfl
  | cons it its ih =>
    rw [List.length_cons, List.flatMap_cons, List.append_assoc]
    unfold readFrames
    obtain ⟨a1, a2⟩ := readInts_enc (g it) ng (hg it) (rg it) ((w it).flatMap enc16 ++
      its.flatMap (fun it => (g it).flatMap enc16 ++ (w it).flatMap enc16))
    obtain ⟨b1, b2⟩ := readInts_enc (w it) nw (hw it) (rw' it)
      (its.flatMap (fun it => (g it).flatMap enc16 ++ (w it).flatMap enc16))
    rw [a1]
    simp only
    rw [a2, b1]
    simp only
    rw [b2, ih]
    rfl

/-- integers of one time step of the grid -/
def gridCodes (so : List (ℚ × ℚ)) (b : Box) (it : Nat) : List Int :=
  (List.range b.nz).flatMap fun iz => (List.range b.ny).flatMap fun iy =>
    (List.range 3).map fun k => code (so.getD k (1, 0)) (b.u k it iy iz)

def towerCodes (so : List (ℚ × ℚ)) (b : Box) (it : Nat) : List Int :=
  (List.range (nTwr b)).flatMap fun j =>
    (List.range 3).map fun k => code (so.getD k (1, 0)) (towerAt b k it j)

theorem gridBytes_eq (so : List (ℚ × ℚ)) (b : Box) (it : Nat) :
    gridBytes so b it = (gridCodes so b it).flatMap enc16 := by
  unfold gridBytes gridCodes
  simp only [List.flatMap_assoc, List.flatMap_map]

theorem towerBytes_eq (so : List (ℚ × ℚ)) (b : Box) (it : Nat) :
    towerBytes so b it = (towerCodes so b it).flatMap enc16 := by
  unfold towerBytes towerCodes
  simp only [List.flatMap_assoc, List.flatMap_map]

theorem gridCodes_length (so : List (ℚ × ℚ)) (b : Box) (it : Nat) :
    (gridCodes so b it).length = 3 * (b.ny * b.nz) := by
  unfold gridCodes
  rw [length_flatMap_range _ (3 * b.ny), Nat.mul_assoc]
  intro i _
  rw [length_flatMap_range _ 3]
  intro j _
  simp

theorem towerCodes_length (so : List (ℚ × ℚ)) (b : Box) (it : Nat) :
    (towerCodes so b it).length = 3 * nTwr b := by
  unfold towerCodes
  rw [length_flatMap_range _ 3]
  intro j _
  simp

theorem gridCodes_range (so : List (ℚ × ℚ)) (b : Box) (it : Nat) :
    ∀ x ∈ gridCodes so b it, -32768 ≤ x ∧ x < 32768 := by
  intro x hx
  unfold gridCodes at hx
  simp only [List.mem_flatMap, List.mem_map] at hx
  obtain ⟨_, _, _, _, _, _, rfl⟩ := hx
  exact wrap16_range _

theorem towerCodes_range (so : List (ℚ × ℚ)) (b : Box) (it : Nat) :
    ∀ x ∈ towerCodes so b it, -32768 ≤ x ∧ x < 32768 := by
  intro x hx
  unfold towerCodes at hx
  simp only [List.mem_flatMap, List.mem_map] at hx
  obtain ⟨_, _, _, _, rfl⟩ := hx
  exact wrap16_range _

theorem gridCodes_get (so : List (ℚ × ℚ)) (b : Box) (it k iy iz : Nat) (hk : k < 3) (hy : iy < b.ny)
    (hz : iz < b.nz) :
    (gridCodes so b it)[k + 3 * (iy + b.ny * iz)]? = some (code (so.getD k (1, 0)) (b.u k it iy iz)) := by
  unfold gridCodes
  have e : k + 3 * (iy + b.ny * iz) = 3 * b.ny * iz + (3 * iy + k) := by ring
  rw [e, getElem?_flatMap_range _ (3 * b.ny) iz _ _ _ hz (by omega),
    getElem?_flatMap_range _ 3 iy _ _ _ hy hk]
  · rw [List.getElem?_map, List.getElem?_range hk]; rfl
  · intro i _; simp
  · intro i _
    rw [length_flatMap_range _ 3]
    intro j _
    simp

theorem towerCodes_get (so : List (ℚ × ℚ)) (b : Box) (it k j : Nat) (hk : k < 3) (hj : j < nTwr b) :
    (towerCodes so b it)[k + 3 * j]? = some (code (so.getD k (1, 0)) (towerAt b k it j)) := by
  unfold towerCodes
  rw [Nat.add_comm, getElem?_flatMap_range _ 3 j _ _ _ hj hk]
  · rw [List.getElem?_map, List.getElem?_range hk]; rfl
  · intro i _; simp

/-- a field of a file made of consecutive pieces -/
theorem slice_pieces (ps : List Bytes) (rest : Bytes) (i : Nat) (p : Bytes) (o w : Nat)
    (hp : ps[i]? = some p) (ho : ((ps.take i).flatten).length = o) (hw : p.length = w) :
    ((ps.flatten ++ rest).drop o).take w = p := by
  have hi : i < ps.length := (List.getElem?_eq_some_iff.1 hp).1
  have hpi : ps[i] = p := (List.getElem?_eq_some_iff.1 hp).2
  have : ps.flatten = (ps.take i).flatten ++ (p ++ (ps.drop (i + 1)).flatten) := by
    conv => lhs; rw [← List.take_append_drop i ps]
    rw [List.flatten_append, List.drop_eq_getElem_cons hi, hpi, List.flatten_cons]
  rw [this, List.append_assoc, List.drop_left' ho, List.append_assoc, List.take_left' hw]

theorem decode_ascii (s : Str) (h : ∀ c ∈ s, c.toNat < 128) :
    (encodeAscii s).map (fun b => Char.ofNat b.toNat) = s ∧
    (encodeAscii s).any (fun b => 128 ≤ b) = false := by
  induction s with
  | nil => exact ⟨rfl, rfl⟩
  | cons c s ih =>
    obtain ⟨h1, h2⟩ := ih (fun x hx => h x (List.mem_cons_of_mem _ hx))
    have hc := h c (List.mem_cons_self ..)
    have hb : (UInt8.ofNat c.toNat).toNat = c.toNat := by
      simp; omega
    unfold encodeAscii at *
    rw [List.map_cons, List.map_cons, h1, List.any_cons, h2, hb]
    refine ⟨by rw [Char.ofNat_toNat], ?_⟩
    have : ¬ (128 ≤ UInt8.ofNat c.toNat) := by
      rw [UInt8.le_iff_toNat_le, hb]
      simpa using hc
    simp [this]

end Verif.TurbSim
