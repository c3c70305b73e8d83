import Verif.Model.LinFrame
import Verif.Py.Dec
import Mathlib.Tactic
/-!
# Data frames of linearization files — C98

`/repo/weio/fast_linearization_file.py` 158-352.
-/
namespace Verif.Lin
open Verif.Py Verif.FastLine

/-- the labels of a list of operating points -/
def labels {F : Type} (l : List (OpRow F)) : List Str := l.map (fun r => shortname r.descr)

theorem entry_some {F : Type} {α : Type} (name : String) (v : Option α) (f : α → Except LErr (Frame F)) (g : α → Frame F)
    (h : ∀ a, v = some a → f a = .ok (g a)) :
    entry name v f = .ok ((v.map (fun a => (name.toList, g a))).toList) := by
  cases v with
  | none => rfl
  | some a =>
    unfold entry
    simp only [h a rfl]
    rfl

theorem inOrder_ok {F : Type} (l : List (List (Str × Frame F))) : inOrder (l.map .ok) = .ok l.flatten := by
  induction l with
  | nil => rfl
  | cons a l ih => rw [List.map_cons, inOrder, ih]; rfl

theorem mkFrame_ok {F : Type} (m : List (List F)) (i c : List Str) (h : m.length = i.length ∧ ∀ r ∈ m, r.length = c.length) :
    mkFrame m i c = .ok ⟨some i, c, m⟩ := by
  unfold mkFrame
  rw [if_pos h]

theorem rowFrame_ok {F : Type} (l : List (OpRow F)) :
    rowFrame (l.map (·.value)) (descr (some l)) = .ok ⟨none, labels l, [l.map (·.value)]⟩ := by
  unfold rowFrame
  rw [if_pos (by simp [descr])]
  rfl

/-- **C98** An object with its lists of states, inputs and outputs and with matrices of the sizes these
lists ask for is exported without error: every matrix and every list that was read is one data frame
with its own values, rows and columns labelled by the short names of the states, inputs and outputs
they belong to, in their order; the mass matrix by the names of its degrees of freedom. -/
theorem C98 {F : Type} (d : Data F) (xs us ys : List (OpRow F)) (hx : d.x = some xs) (hu : d.u = some us) (hy : d.y = some ys)
    (hA : ∀ m, d.A = some m → m.length = xs.length ∧ ∀ r ∈ m, r.length = xs.length)
    (hB : ∀ m, d.B = some m → m.length = xs.length ∧ ∀ r ∈ m, r.length = us.length)
    (hC : ∀ m, d.C = some m → m.length = ys.length ∧ ∀ r ∈ m, r.length = xs.length)
    (hD : ∀ m, d.D = some m → m.length = ys.length ∧ ∀ r ∈ m, r.length = us.length)
    (hM : ∀ m, d.M = some m → ∃ e, d.eddof = some e ∧ m.length = e.length ∧ ∀ r ∈ m, r.length = e.length)
    (hdu : ∀ m, d.dUdu = some m → m.length = us.length ∧ ∀ r ∈ m, r.length = us.length)
    (hdy : ∀ m, d.dUdy = some m → m.length = us.length ∧ ∀ r ∈ m, r.length = ys.length) :
    toDataFrame d = .ok
      ((d.A.map (fun m => ("A".toList, ⟨some (labels xs), labels xs, m⟩))).toList ++
       (d.B.map (fun m => ("B".toList, ⟨some (labels xs), labels us, m⟩))).toList ++
       (d.C.map (fun m => ("C".toList, ⟨some (labels ys), labels xs, m⟩))).toList ++
       (d.D.map (fun m => ("D".toList, ⟨some (labels ys), labels us, m⟩))).toList ++
       [("x".toList, ⟨none, labels xs, [xs.map (·.value)]⟩)] ++
       (d.xdot.map (fun l => ("xdot".toList, ⟨none, labels l, [l.map (·.value)]⟩))).toList ++
       [("u".toList, ⟨none, labels us, [us.map (·.value)]⟩), ("y".toList, ⟨none, labels ys, [ys.map (·.value)]⟩)] ++
       (d.M.map (fun m => ("M".toList, ⟨some (d.eddof.getD []), d.eddof.getD [], m⟩))).toList ++
       (d.dUdu.map (fun m => ("dUdu".toList, ⟨some (labels us), labels us, m⟩))).toList ++
       (d.dUdy.map (fun m => ("dUdy".toList, ⟨some (labels us), labels ys, m⟩))).toList) := by
  have lx : descr d.x = labels xs := by rw [hx]; rfl
  have lu : descr d.u = labels us := by rw [hu]; rfl
  have ly : descr d.y = labels ys := by rw [hy]; rfl
  have nx : (labels xs).length = xs.length := by simp [labels]
  have nu : (labels us).length = us.length := by simp [labels]
  have ny : (labels ys).length = ys.length := by simp [labels]
  unfold toDataFrame
  simp only
  rw [entry_some "A" d.A _ (fun m => ⟨some (labels xs), labels xs, m⟩)
      (fun m hm => by rw [lx]; exact mkFrame_ok m _ _ (by rw [nx]; exact hA m hm)),
    entry_some "B" d.B _ (fun m => ⟨some (labels xs), labels us, m⟩)
      (fun m hm => by rw [lx, lu]; exact mkFrame_ok m _ _ (by rw [nx, nu]; exact hB m hm)),
    entry_some "C" d.C _ (fun m => ⟨some (labels ys), labels xs, m⟩)
      (fun m hm => by rw [lx, ly]; exact mkFrame_ok m _ _ (by rw [nx, ny]; exact hC m hm)),
    entry_some "D" d.D _ (fun m => ⟨some (labels ys), labels us, m⟩)
      (fun m hm => by rw [lu, ly]; exact mkFrame_ok m _ _ (by rw [nu, ny]; exact hD m hm)),
    entry_some "x" d.x _ (fun l => ⟨none, labels l, [l.map (·.value)]⟩) (fun l hl => by rw [hl]; exact rowFrame_ok l),
    entry_some "xdot" d.xdot _ (fun l => ⟨none, labels l, [l.map (·.value)]⟩) (fun l hl => by rw [hl]; exact rowFrame_ok l),
    entry_some "u" d.u _ (fun l => ⟨none, labels l, [l.map (·.value)]⟩) (fun l hl => by rw [hl]; exact rowFrame_ok l),
    entry_some "y" d.y _ (fun l => ⟨none, labels l, [l.map (·.value)]⟩) (fun l hl => by rw [hl]; exact rowFrame_ok l),
    entry_some "M" d.M _ (fun m => ⟨some (d.eddof.getD []), d.eddof.getD [], m⟩)
      (fun m hm => by
        obtain ⟨e, he, hs⟩ := hM m hm
        rw [he]; exact mkFrame_ok m _ _ hs),
    entry_some "dUdu" d.dUdu _ (fun m => ⟨some (labels us), labels us, m⟩)
      (fun m hm => by rw [lu]; exact mkFrame_ok m _ _ (by rw [nu]; exact hdu m hm)),
    entry_some "dUdy" d.dUdy _ (fun m => ⟨some (labels us), labels ys, m⟩)
      (fun m hm => by rw [lu, ly]; exact mkFrame_ok m _ _ (by rw [nu, ny]; exact hdy m hm)), hx, hu, hy]
  have := inOrder_ok (F := F)
    [(d.A.map (fun m => ("A".toList, ⟨some (labels xs), labels xs, m⟩))).toList,
     (d.B.map (fun m => ("B".toList, ⟨some (labels xs), labels us, m⟩))).toList,
     (d.C.map (fun m => ("C".toList, ⟨some (labels ys), labels xs, m⟩))).toList,
     (d.D.map (fun m => ("D".toList, ⟨some (labels ys), labels us, m⟩))).toList,
     [("x".toList, ⟨none, labels xs, [xs.map (·.value)]⟩)],
     (d.xdot.map (fun l => ("xdot".toList, ⟨none, labels l, [l.map (·.value)]⟩))).toList,
     [("u".toList, ⟨none, labels us, [us.map (·.value)]⟩)], [("y".toList, ⟨none, labels ys, [ys.map (·.value)]⟩)],
     (d.M.map (fun m => ("M".toList, ⟨some (d.eddof.getD []), d.eddof.getD [], m⟩))).toList,
     (d.dUdu.map (fun m => ("dUdu".toList, ⟨some (labels us), labels us, m⟩))).toList,
     (d.dUdy.map (fun m => ("dUdy".toList, ⟨some (labels us), labels ys, m⟩))).toList]
  refine Eq.trans this ?_
  simp [List.append_assoc]

theorem replace_char (c : Char) (s : Str) (n : Nat) (hn : s.length < n) : Hawc2.replaceN [c] [] n s = s.filter (· ≠ c) := by
  induction s generalizing n with
  | nil =>
    obtain ⟨n, rfl⟩ : ∃ k, n = k + 1 := ⟨n - 1, by omega⟩
    rfl
  | cons x s ih =>
    obtain ⟨n, rfl⟩ : ∃ k, n = k + 1 := ⟨n - 1, by simp at hn; omega⟩
    rw [Hawc2.replaceN]
    by_cases hx : x = c
    · subst hx
      rw [if_pos (by simp [List.isPrefixOf])]
      simp only [List.nil_append, List.length_singleton, List.drop_succ_cons, List.drop_zero]
      rw [ih n (by simp at hn; omega)]
      simp
    · rw [if_neg (by simp [List.isPrefixOf]; exact fun h => hx h.symm), ih n (by simp at hn; omega)]
      simp [hx]

theorem strip_sub (s : Str) : ∀ c ∈ strip s, c ∈ s := by
  intro c hc
  unfold strip stripBy rstripBy lstripBy at hc
  rw [List.mem_reverse] at hc
  have h1 := (List.dropWhile_suffix (l := (s.dropWhile isWs).reverse) isWs).subset hc
  rw [List.mem_reverse] at h1
  exact (List.dropWhile_suffix (l := s) isWs).subset h1

/-- **C98** A label has no blank and no comma, whatever the description. -/
theorem C98_names (s : Str) : ' ' ∉ shortname s ∧ ',' ∉ shortname s := by
  have key : ∀ t : Str, ' ' ∉ strip (replaceAll t tailPairs) ∧ ',' ∉ strip (replaceAll t tailPairs) := by
    intro t
    have hl : tailPairs = tailPairs.take 86 ++ [(",", ""), (" ", "")] := by decide +kernel
    unfold replaceAll
    rw [hl, List.foldl_append]
    generalize (tailPairs.take 86).foldl _ t = t'
    have h2 : List.foldl (fun s (p : String × String) => Hawc2.replace p.1.toList p.2.toList s) t' [(",", ""), (" ", "")] =
        ((t'.filter (· ≠ ',')).filter (· ≠ ' ')) := by
      show Hawc2.replace [' '] [] (Hawc2.replace [','] [] t') = _
      unfold Hawc2.replace
      rw [replace_char ',' t' _ (by omega), replace_char ' ' _ _ (by omega)]
    rw [h2]
    constructor
    · intro h
      have := strip_sub _ _ h
      simp at this
    · intro h
      have := strip_sub _ _ h
      simp at this
  exact key _

/-- labels of a few descriptions of OpenFAST -/
example : shortname "ED 1st tower fore-aft bending mode DOF (internal DOF index = DOF_TFA1), m".toList = "qt1FA_[m]".toList ∧
    shortname "First time derivative of ED Variable speed generator DOF (internal DOF index = DOF_GeAz), rad/s".toList
      = "d_psi_rot_[rad/s]".toList ∧
    shortname "IfW Extended input: horizontal wind speed (steady/uniform wind), m/s".toList = "WS_[m/s]".toList ∧
    shortname "ED Blade 1 X force, node 17, N".toList = "B1FxN17_[N]".toList := by decide +kernel

/-- two states, one input, one output, three matrices -/
def exData : Data Nat :=
  { header := [], azimuth := none, rotSpeed := none, windSpeed := none,
    x := some [⟨5, [], 2, "ED Platform horizontal surge translation DOF, m".toList⟩, ⟨6, [], 2, "ED Nacelle yaw rotation DOF, rad".toList⟩],
    u := some [⟨7, [], -1, "ED Generator torque, Nm".toList⟩],
    y := some [⟨8, [], -1, "ED GenPwr, (kW)".toList⟩],
    A := some [[0, 1], [2, 3]], B := some [[4], [5]], D := some [[6]] }

local instance exDec : DecidableEq (Str × Option (List Str) × List (List Nat)) := inferInstance

example : (toDataFrame exData).toOption.map (fun l => l.map (fun p => (p.1, p.2.index, p.2.rows))) =
    some [("A".toList, some ["PtfmSurge_[m]".toList, "NacYaw_[rad]".toList], [[0, 1], [2, 3]]),
      ("B".toList, some ["PtfmSurge_[m]".toList, "NacYaw_[rad]".toList], [[4], [5]]),
      ("D".toList, some ["GenPwr_[kW]".toList], [[6]]),
      ("x".toList, none, [[5, 6]]), ("u".toList, none, [[7]]), ("y".toList, none, [[8]])] := by
  rw [C98 exData _ _ _ rfl rfl rfl (fun m hm => by cases hm; decide) (fun m hm => by cases hm; decide) (fun m hm => by cases hm)
    (fun m hm => by cases hm; decide) (fun m hm => by cases hm) (fun m hm => by cases hm) (fun m hm => by cases hm)]
  decide +kernel

end Verif.Lin
