import Verif.Lemmas.Lin
import Verif.Py.Dec
/-!
# What is read from linearization files — C92, C93

`FASTLinearizationFile._read` (`/repo/weio/fast_linearization_file.py` 44-149).
-/
namespace Verif.Lin
open Verif.Py Verif.FastLine

/-- **C92** From a linearization file — at most 30 lines of header, the line with `Jacobians
included`, then lists of operating points, matrices and other lines in any order — exactly the
numbers, frames, derivative orders and descriptions written are read, for any numbers of states,
inputs and outputs; the azimuth, rotor speed and wind speed are read when the header has them. -/
theorem C92 {F : Type} (parse : Str → Option F) (pre : List Str) (m : Str) (bs : List (Block F)) (nx nu ny : Nat)
    (az rot wind : Option Str)
    (hlen : pre.length ≤ 30) (hpre : ∀ l ∈ pre, ¬ "Jacobians included".toList <:+: l)
    (hm : "Jacobians included".toList <:+: m)
    (hh : Header (pre.map strip ++ [m]) nx nu ny az rot wind)
    (hb : ∀ b ∈ bs, b.Ok parse nx nu ny) :
    read parse (pre ++ m :: bs.flatMap Block.lines) =
      .ok { header := pre.map strip ++ [m], azimuth := az.bind parse, rotSpeed := rot.bind parse,
            windSpeed := wind.bind parse,
            x := lastOp .x bs, xdot := lastOp .xdot bs, u := lastOp .u bs, y := lastOp .y bs,
            A := lastMat .A bs, B := lastMat .B bs, C := lastMat .C bs, D := lastMat .D bs,
            dUdu := lastMat .dUdu bs, dUdy := lastMat .dUdy bs,
            eddof := (lastMass bs).map (·.1), M := (lastMass bs).map (·.2) } := by
  rw [read_header parse _ _ _ _ nx nu ny az rot wind (readToMarker_ok _ 30 0 none pre m _ hpre hm (by omega)) hh]
  obtain ⟨f', -, h⟩ := loop_blocks parse nx nu ny (bs.flatMap Block.lines).length
    { header := pre.map strip ++ [m], azimuth := az.bind parse, rotSpeed := rot.bind parse, windSpeed := wind.bind parse }
    bs [] hb (by simp)
  rw [List.append_nil] at h
  rw [h, loop.eq_def, foldl_put]
  simp

/-! ### A file -/

/-- a toy number: digits -/
def digitsOf (s : Str) : Option Nat :=
  if s ≠ [] ∧ s.all Char.isDigit then some ((pyInt s).toNat) else none

/-- the header of a file with two states, one input, one output -/
def exHead : List Str :=
  ["Linearized model:",
   "  Rotor Speed: 12 rad/s",
   "  Azimuth:     90 rad",
   "Number of continuous states:   2",
   "Number of discrete states:     0",
   "Number of constraint states:   0",
   "Number of inputs:              1",
   "Number of outputs:             1"].map String.toList

/-- its marker line -/
def exMark : Str := "Jacobians included in this file?  No".toList

/-- its lists and matrices -/
def exBlocks : List (Block Nat) :=
  [.other "".toList,
   .op .x "Order of continuous states:".toList "Row  Operating Point  Reference  Derivative Order  Description".toList
     "---  ---".toList ["1  5  F  2  ED Platform surge, m".toList, "2  6  F  2  ED Platform sway, m".toList]
     [⟨5, "F".toList, 2, "ED Platform surge, m".toList⟩, ⟨6, "F".toList, 2, "ED Platform sway, m".toList⟩],
   .op .u "Order of inputs:".toList "Row  Operating Point  Reference  Description".toList
     "---  ---".toList ["1  7,  8,  9  T  ED node orientation".toList]
     [⟨7, "T".toList, -1, "ED node orientation".toList⟩],
   .mat .A "A: 2 x 2".toList ["0 1".toList, "3 4".toList] [[0, 1], [3, 4]],
   .mat .B "B: 2 x 1".toList ["5".toList, "6".toList] [[5], [6]]]

theorem exOk : ∀ b ∈ exBlocks, b.Ok digitsOf 2 1 1 := by
  intro b hb
  simp only [exBlocks, List.mem_cons, List.not_mem_nil, or_false] at hb
  rcases hb with rfl | rfl | rfl | rfl | rfl
  · intro k hk h
    have := (has_iff _ _).2 h
    revert k
    decide +kernel
  · have hD : "Derivative Order".toList <:+: strip "Row  Operating Point  Reference  Derivative Order  Description".toList :=
      (has_iff _ _).1 (by decide +kernel)
    refine ⟨by decide +kernel, ?_, rfl, by simp⟩
    refine .cons ⟨"1".toList, "5".toList, ["5".toList], ["2".toList], ["ED", "Platform", "surge,", "m"].map String.toList,
      by decide +kernel, .inl ⟨rfl, by decide⟩, by decide +kernel, fun _ => by decide +kernel, fun h => absurd hD h, by decide +kernel⟩ ?_
    exact .cons ⟨"2".toList, "6".toList, ["6".toList], ["2".toList], ["ED", "Platform", "sway,", "m"].map String.toList,
      by decide +kernel, .inl ⟨rfl, by decide⟩, by decide +kernel, fun _ => by decide +kernel, fun h => absurd hD h, by decide +kernel⟩ .nil
  · have hD : ¬ "Derivative Order".toList <:+: strip "Row  Operating Point  Reference  Description".toList :=
      fun h => absurd ((has_iff _ _).2 h) (by decide +kernel)
    refine ⟨by decide +kernel, ?_, rfl, by simp⟩
    exact .cons ⟨"1".toList, "7".toList, ["7,".toList, "8,".toList, "9".toList], [], ["ED", "node", "orientation"].map String.toList,
      by decide +kernel, .inr ⟨"8,".toList, "9".toList, rfl⟩, by decide +kernel, fun h => absurd h hD, fun _ => ⟨rfl, rfl⟩,
      by decide +kernel⟩ .nil
  · refine ⟨⟨" 2 x 2".toList, by decide +kernel, by decide, not_infix _ _ (by decide +kernel)⟩, ?_, rfl, 2, by decide⟩
    exact .cons (.cons (by decide +kernel) (.cons (by decide +kernel) .nil))
      (.cons (.cons (by decide +kernel) (.cons (by decide +kernel) .nil)) .nil)
  · refine ⟨⟨" 2 x 1".toList, by decide +kernel, by decide, not_infix _ _ (by decide +kernel)⟩, ?_, rfl, 1, by decide⟩
    exact .cons (.cons (by decide +kernel) .nil) (.cons (.cons (by decide +kernel) .nil) .nil)

theorem exField (i : Nat) (key : Str) (w : Str) (p q : Str) (hs : List Str) (r : List Str)
    (hi : hs = hs.take i ++ (p ++ key ++ q) :: hs.drop (i + 1)) (ha : (hs.take i).all (fun l => !has key l) = true)
    (hp : p.all isWs = true) (hq : has key q = false) (hw : words q = w :: r) : Field hs key (some w) :=
  ⟨hs.take i, p, q, hs.drop (i + 1), r, hi,
    fun l hl h => by have := List.all_eq_true.1 ha l hl; rw [(has_iff _ _).2 h] at this; simp at this,
    fun c hc => List.all_eq_true.1 hp c hc, fun h => by rw [(has_iff _ _).2 h] at hq; simp at hq, hw⟩

theorem exHeader : Header (exHead.map strip ++ [exMark]) 2 1 1 (some "90".toList) (some "12".toList) none where
  x := exField 3 _ _ [] "   2".toList _ [] (by decide +kernel) (by decide +kernel) rfl (by decide +kernel) (by decide +kernel)
  discrete := ⟨0, exField 4 _ _ [] "     0".toList _ [] (by decide +kernel) (by decide +kernel) rfl (by decide +kernel) (by decide +kernel)⟩
  constr := ⟨0, exField 5 _ _ [] "   0".toList _ [] (by decide +kernel) (by decide +kernel) rfl (by decide +kernel) (by decide +kernel)⟩
  u := exField 6 _ _ [] "              1".toList _ [] (by decide +kernel) (by decide +kernel) rfl (by decide +kernel) (by decide +kernel)
  y := exField 7 _ _ [] "             1".toList _ [] (by decide +kernel) (by decide +kernel) rfl (by decide +kernel) (by decide +kernel)
  jac := ⟨some "No".toList, exField 8 _ _ [] "  No".toList _ [] (by decide +kernel) (by decide +kernel) rfl (by decide +kernel) (by decide +kernel)⟩
  azimuth := exField 2 _ _ [] "     90 rad".toList _ ["rad".toList] (by decide +kernel) (by decide +kernel) rfl (by decide +kernel) (by decide +kernel)
  rotor := exField 1 _ _ [] " 12 rad/s".toList _ ["rad/s".toList] (by decide +kernel) (by decide +kernel) rfl (by decide +kernel) (by decide +kernel)
  wind := fun l hl h => by
    have := (has_iff _ _).2 h
    revert l
    decide +kernel

/-- two states of which the derivative order is given, one input with three values, two matrices, no
wind speed: what C92 says -/
example : read digitsOf (exHead ++ exMark :: exBlocks.flatMap Block.lines) =
    .ok { header := exHead.map strip ++ [exMark], azimuth := some 90, rotSpeed := some 12, windSpeed := none,
          x := some [⟨5, "F".toList, 2, "ED Platform surge, m".toList⟩, ⟨6, "F".toList, 2, "ED Platform sway, m".toList⟩],
          u := some [⟨7, "T".toList, -1, "ED node orientation".toList⟩],
          A := some [[0, 1], [3, 4]], B := some [[5], [6]] } := by
  rw [C92 digitsOf exHead exMark exBlocks 2 1 1 _ _ _ (by decide) (fun l hl h => by
    have := (has_iff _ _).2 h
    revert l
    decide +kernel) ((has_iff _ _).1 (by decide +kernel)) exHeader exOk]
  rfl

/-! ### Files that are cut short -/

/-- the file of the example -/
def exFile : List Str := exHead ++ exMark :: exBlocks.flatMap Block.lines

/-- **C93, negation** Files cut short are read without a word: cut in the list of states, there is
one state instead of two; cut just after the title of a matrix, the matrix has its two rows, empty;
cut before the line `Jacobians included`, there is nothing at all. -/
theorem C93_fails :
    (read digitsOf exFile).toOption.map (fun d => (d.x.map List.length, d.A)) = some (some 2, some [[0, 1], [3, 4]]) ∧
    (read digitsOf (exFile.take 14)).toOption.map (fun d => (d.x.map List.length, d.A)) = some (some 1, none) ∧
    (read digitsOf (exFile.take 20)).toOption.map (fun d => (d.x.map List.length, d.A)) = some (some 2, some [[], []]) ∧
    (read digitsOf (exFile.take 8)).toOption.map (fun d => (d.x.map List.length, d.A)) = some (none, none) := by
  decide +kernel

/-- **C93 (partial)** A file which ends inside a matrix, after at least one of its rows, is refused
(ValueError). -/
theorem C93_matrix_partial {F : Type} (parse : Str → Option F) (pre : List Str) (m : Str) (bs : List (Block F)) (nx nu ny : Nat)
    (az rot wind : Option Str) (k : MatKind) (t r l : Str) (ls : List Str)
    (hlen : pre.length ≤ 30) (hpre : ∀ l ∈ pre, ¬ "Jacobians included".toList <:+: l)
    (hm : "Jacobians included".toList <:+: m)
    (hh : Header (pre.map strip ++ [m]) nx nu ny az rot wind)
    (hb : ∀ b ∈ bs, b.Ok parse nx nu ny)
    (ht : TitleOf k.title t r) (hl : words l ≠ []) (hn : ls.length + 1 < k.size nx nu ny) :
    read parse (pre ++ m :: (bs.flatMap Block.lines ++ t :: l :: ls)) = .error .value := by
  rw [read_header parse _ _ _ _ nx nu ny az rot wind (readToMarker_ok _ 30 0 none pre m _ hpre hm (by omega)) hh]
  obtain ⟨f', h1, h⟩ := loop_blocks parse nx nu ny (bs.flatMap Block.lines ++ t :: l :: ls).length
    { header := pre.map strip ++ [m], azimuth := az.bind parse, rotSpeed := rot.bind parse, windSpeed := wind.bind parse }
    bs (t :: l :: ls) hb (by simp)
  obtain ⟨f', rfl⟩ : ∃ j, f' = j + 1 := ⟨f' - 1, by simp at h1; omega⟩
  rw [h, loop, section_mat_eq parse nx nu ny _ k t r _ ht, readMat_short parse _ l ls hl hn]
  rfl

/-- the file of the example without its last row -/
example : read digitsOf (exFile.take 24) = .error .value :=
  C93_matrix_partial digitsOf exHead exMark (exBlocks.take 4) 2 1 1 _ _ _ .B "B: 2 x 1".toList " 2 x 1".toList "5".toList []
    (by decide) (fun l hl h => by
      have := (has_iff _ _).2 h
      revert l
      decide +kernel) ((has_iff _ _).1 (by decide +kernel)) exHeader (fun b hb => exOk b (List.mem_of_mem_take hb))
    ⟨by decide +kernel, by decide, not_infix _ _ (by decide +kernel)⟩ (by decide +kernel) (by decide)

/-- **C93 (partial)** A file of 32 lines or more whose first 31 lines do not say whether there are
Jacobians is refused (BrokenFormatError). -/
theorem C93_marker_partial {F : Type} (parse : Str → Option F) (pre : List Str) (m : Str) (rest : List Str)
    (hlen : 31 ≤ pre.length) (hpre : ∀ l ∈ pre, ¬ "Jacobians included".toList <:+: l) :
    read parse (pre ++ m :: rest) = .error .broken := by
  unfold read
  rw [readToMarker_long _ 30 0 none pre m rest hpre (by omega)]

/-- a file of 32 blank lines -/
example : read digitsOf (List.replicate 31 [] ++ [[]]) = .error .broken :=
  C93_marker_partial digitsOf (List.replicate 31 []) [] [] (by simp) (by
    intro l hl h
    rw [List.eq_of_mem_replicate hl] at h
    simp at h)

/-- **C93 (partial)** A file which ends before its numbers of states, inputs and outputs are all
given is refused. -/
theorem C93_header_partial {F : Type} (parse : Str → Option F) (pre : List Str) (m : Str) (key : Str)
    (hkey : key ∈ (["Number of continuous states:", "Number of discrete states:", "Number of constraint states:",
      "Number of inputs:", "Number of outputs:"].map String.toList : List Str))
    (hlen : pre.length ≤ 30) (hpre : ∀ l ∈ pre, ¬ "Jacobians included".toList <:+: l)
    (hm : ¬ "Jacobians included".toList <:+: m)
    (hk : ∀ l ∈ pre ++ [m], ¬ key <:+: l) :
    ∃ e, read parse (pre ++ [m]) = .error e := by
  refine read_missing parse _ _ _ _ key hkey (readToMarker_end _ 30 0 none pre m hpre hm (by omega)) ?_
  intro l hl h
  simp only [List.mem_append, List.mem_map, List.mem_singleton] at hl
  rcases hl with (⟨l', hl', rfl⟩ | rfl) | rfl
  · exact hk l' (by simp [hl']) (h.trans (strip_infix l'))
  · exact hk m (by simp) (h.trans (strip_infix m))
  · exact hk l (by simp) h

/-- the file of the example without its number of outputs -/
example : ∃ e, read digitsOf (exFile.take 7) = .error e :=
  C93_header_partial digitsOf (exFile.take 6) "Number of inputs:              1".toList "Number of outputs:".toList
    (by decide) (by decide) (fun l hl h => by
      have := (has_iff _ _).2 h
      revert l
      decide +kernel) (not_infix _ _ (by decide +kernel)) (fun l hl h => by
      have := (has_iff _ _).2 h
      revert l
      decide +kernel)

end Verif.Lin
