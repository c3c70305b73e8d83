import Verif.Lemmas.Yaml
import Verif.Lemmas.FlexBld
import Verif.Lemmas.FlexPro
import Verif.Py.Dec
import Mathlib.Data.List.Forall2
import Mathlib.Tactic
/-!
# Small YAML files — C106, C107, C108

`/repo/weio/mini_yaml.py`.
-/
namespace Verif.Yaml
open Verif.Py
open Verif.Rosco (fitRow)
open Verif.FlexPro (setKey)

/-- **C106** From a file of lines `key: value`, matrices `key:` with lines `- [..]`, blank lines and
comments, exactly the values written are read, in the order of the file: a value which is an integer
as an integer, one which is a real number as such, any other as its text; a matrix of integers as such,
a matrix with a real number in its first row as real numbers. -/
theorem C106 {F : Type} (φ : Num F) (bs : List (Block F)) (h : ∀ b ∈ bs, b.Ok φ)
    (hk : ((bs.filterMap Block.entry).map Prod.fst).Nodup) :
    read φ (bs.flatMap Block.lines) = .ok (bs.filterMap Block.entry) := by
  obtain ⟨f', -, hl⟩ := loop_blocks φ bs h (bs.flatMap Block.lines).length [] [] (by simp) (by simp)
  rw [List.append_nil] at hl
  unfold read
  rw [hl, FlexPro.foldl_setKey _ [] (by simpa using hk), List.nil_append]
  cases f' <;> rfl

/-- **C109** A file with a line, not blank and no comment, which has no colon or more than one, is refused,
wherever the line is and whatever follows. -/
theorem C109 {F : Type} (φ : Num F) (bs : List (Block F)) (h : ∀ b ∈ bs, b.Ok φ) (l s : Str) (rest : List Str)
    (hl : Reads l s) (hs : s ≠ []) (hd : s.head? ≠ some '-') (hc : s.count ':' ≠ 1) :
    read φ (bs.flatMap Block.lines ++ l :: rest) = .error .index := by
  have hdash : isDash l = false := by rw [dash_head l s hl]; simpa using hd
  obtain ⟨f', hf, hb⟩ := loop_blocks φ bs h (bs.flatMap Block.lines ++ l :: rest).length [] (l :: rest)
    (fun l' hl' => by simp at hl'; rw [← hl']; exact hdash) (le_refl _)
  unfold read
  rw [hb]
  obtain ⟨f', rfl⟩ : ∃ j, f' = j + 1 := ⟨f' - 1, by simp at hf; omega⟩
  rw [loop, clean_reads l s hl, if_neg hs]
  have hlen := splitOn_count ':' s
  split
  · rename_i key val he
    rw [he] at hlen
    simp at hlen
    omega
  · rfl

/-- **C109** A file which ends with a key without a value is refused. -/
theorem C109_end {F : Type} (φ : Num F) (bs : List (Block F)) (h : ∀ b ∈ bs, b.Ok φ) (l key : Str)
    (hl : Reads l (key ++ [':'])) (hk : ':' ∉ key) (hd : key.head? ≠ some '-') :
    read φ (bs.flatMap Block.lines ++ [l]) = .error .unbound := by
  have hdash : isDash l = false := by
    rw [dash_head l _ hl]
    cases key with
    | nil => rfl
    | cons c key => simpa using hd
  obtain ⟨f', hf, hb⟩ := loop_blocks φ bs h (bs.flatMap Block.lines ++ [l]).length [] [l]
    (fun l' hl' => by simp at hl'; rw [← hl']; exact hdash) (le_refl _)
  unfold read
  rw [hb]
  obtain ⟨f', rfl⟩ : ∃ j, f' = j + 1 := ⟨f' - 1, by simp at hf; omega⟩
  rw [loop, clean_reads l _ hl, if_neg (by simp), splitOn_append ':' key [] hk]
  rfl

/-! ### A file -/

/-- toy integers: digits -/
def digitsOf (s : Str) : Option Int :=
  if s ≠ [] ∧ s.all Char.isDigit then some (FastLine.pyInt s) else none

/-- toy numbers: a real number is its digits -/
def toy : Num Nat := ⟨digitsOf, fun s => (digitsOf (s.filter (· ≠ '.'))).map Int.toNat⟩

def exBlocks : List (Block Nat) :=
  [.blank "# summary".toList,
   .pair "  nNodes: 3 # number".toList "nNodes".toList " 3".toList (.int 3),
   .pair "mass: 2.5".toList "mass".toList " 2.5".toList (.float 25),
   .pair "name: a b".toList "name".toList " a b".toList (.str "a b".toList),
   .mat "Conn:".toList "Conn".toList [" - [1, 2]".toList, " -[ 3,4] # last".toList] [["1".toList, "2".toList], ["3".toList, "4".toList]]
     (.ints [[1, 2], [3, 4]]),
   .blank [],
   .mat "K: ".toList "K".toList ["- [1.5, 2]".toList] [["1.5".toList, "2".toList]] (.floats [[15, 2]])]

theorem exDash (l blank : Str) (cells : List Str) (a more : Str) (ws : List Str) (hl : l = a ++ '#' :: more ∨ l = a) (ha : '#' ∉ a)
    (hs : strip a = '-' :: (blank ++ '[' :: (joinWith [','] cells ++ [']']))) (hb : blank.all isWs = true)
    (hc : ∀ w ∈ cells, ',' ∉ w ∧ '[' ∉ w ∧ ']' ∉ w) (hw : cells.map strip = ws) : DashRow l ws :=
  ⟨blank, cells, ⟨a, hl.symm.imp id (fun e => ⟨more, e⟩), ha, hs⟩, fun c h => List.all_eq_true.1 hb c h, hc, hw⟩

theorem exRow1 : DashRow " - [1, 2]".toList ["1".toList, "2".toList] :=
  exDash _ [' '] ["1".toList, " 2".toList] " - [1, 2]".toList [] _ (.inr rfl) (by decide) (by decide +kernel) rfl (by decide) (by decide +kernel)

theorem exRow2 : DashRow " -[ 3,4] # last".toList ["3".toList, "4".toList] :=
  exDash _ [] [" 3".toList, "4".toList] " -[ 3,4] ".toList " last".toList _ (.inl rfl) (by decide) (by decide +kernel) rfl (by decide) (by decide +kernel)

theorem exRow3 : DashRow "- [1.5, 2]".toList ["1.5".toList, "2".toList] :=
  exDash _ [' '] ["1.5".toList, " 2".toList] "- [1.5, 2]".toList [] _ (.inr rfl) (by decide) (by decide +kernel) rfl (by decide) (by decide +kernel)

theorem exOk : ∀ b ∈ exBlocks, b.Ok toy := by
  intro b hb
  simp only [exBlocks, List.mem_cons, List.not_mem_nil, or_false] at hb
  rcases hb with rfl | rfl | rfl | rfl | rfl | rfl | rfl
  · exact ⟨[], .inr ⟨" summary".toList, rfl⟩, by simp, rfl⟩
  · exact ⟨⟨"  nNodes: 3 ".toList, .inr ⟨" number".toList, rfl⟩, by decide, by decide +kernel⟩, by decide, by decide, by decide,
      by decide +kernel, by decide +kernel⟩
  · exact ⟨⟨"mass: 2.5".toList, .inl rfl, by decide, by decide +kernel⟩, by decide, by decide, by decide,
      by decide +kernel, by decide +kernel⟩
  · exact ⟨⟨"name: a b".toList, .inl rfl, by decide, by decide +kernel⟩, by decide, by decide, by decide,
      by decide +kernel, by decide +kernel⟩
  · refine ⟨⟨"Conn:".toList, .inl rfl, by decide, by decide +kernel⟩, by decide, by decide, .cons exRow1 (.cons exRow2 .nil), by simp,
      ⟨2, by omega, by decide⟩, .inl ⟨_, rfl, ?_⟩⟩
    exact .cons (.cons (by decide +kernel) (.cons (by decide +kernel) .nil)) (.cons (.cons (by decide +kernel) (.cons (by decide +kernel) .nil)) .nil)
  · exact ⟨[], .inl rfl, by simp, rfl⟩
  · refine ⟨⟨"K: ".toList, .inl rfl, by decide, by decide +kernel⟩, by decide, by decide, .cons exRow3 .nil, by simp,
      ⟨2, by omega, by decide⟩, .inr ⟨_, rfl, ?_, "1.5".toList, by simp, by decide +kernel⟩⟩
    exact .cons (.cons (by decide +kernel) (.cons (by decide +kernel) .nil)) .nil

example : read toy (exBlocks.flatMap Block.lines) =
    .ok [("nNodes".toList, .int 3), ("mass".toList, .float 25), ("name".toList, .str "a b".toList),
      ("Conn".toList, .ints [[1, 2], [3, 4]]), ("K".toList, .floats [[15, 2]])] :=
  C106 toy exBlocks exOk (by decide +kernel)

example : read toy (exBlocks.flatMap Block.lines ++ ["time: 12:30".toList]) = .error .index :=
  C109 toy exBlocks exOk _ "time: 12:30".toList _ ⟨_, .inl rfl, by decide, by decide +kernel⟩ (by decide) (by decide) (by decide)

example : read toy (exBlocks.flatMap Block.lines ++ ["more:".toList]) = .error .unbound :=
  C109_end toy exBlocks exOk _ "more".toList ⟨_, .inl rfl, by decide, by decide +kernel⟩ (by decide) (by decide)

/-- **C107** is violated: a row of one number is repeated. -/
theorem C107_fails : read toy ["a:".toList, "- [1, 2]".toList, "- [3]".toList] = .ok [("a".toList, .ints [[1, 2], [3, 3]])] := by
  decide +kernel

/-- **C107** A matrix with a row which has not as many texts as the first, but not one, is refused. -/
theorem C107_partial {F : Type} (φ : Num F) (bs : List (Block F)) (h : ∀ b ∈ bs, b.Ok φ) (l key : Str) (ls : List Str)
    (rows : List (List Str)) (v : Val F) (hb : (Block.mat l key ls rows v).Ok φ) (bad : Str) (ws : List Str) (rest : List Str)
    (hbad : DashRow bad ws) (hws : ∀ w ∈ ws, w ≠ []) (h0 : 2 ≤ ws.length) (hlen : ∀ r ∈ rows, r.length ≠ ws.length) :
    read φ (bs.flatMap Block.lines ++ l :: (ls ++ bad :: rest)) = .error .value := by
  obtain ⟨h1, h2, hd, h4, h5, h6, h7⟩ := hb
  have hdash : isDash l = false := by
    rw [dash_head l _ h1]
    cases key with
    | nil => rfl
    | cons c key => simpa using hd
  obtain ⟨f', hf, hl⟩ := loop_blocks φ bs h (bs.flatMap Block.lines ++ l :: (ls ++ bad :: rest)).length [] (l :: (ls ++ bad :: rest))
    (fun l' hl' => by simp at hl'; rw [← hl']; exact hdash) (le_refl _)
  unfold read
  rw [hl]
  obtain ⟨f', rfl⟩ : ∃ j, f' = j + 1 := ⟨f' - 1, by simp at hf; omega⟩
  rw [loop, clean_reads l _ h1, if_neg (by simp), splitOn_append ':' key [] h2]
  simp only [splitOn]
  rw [if_pos (show strip [] = [] from rfl), readDashList_bad φ ls rows v rest h4 h5 h6 h7 bad ws hbad hws h0 hlen]

/-- three numbers under rows of two -/
example : read toy (exBlocks.flatMap Block.lines ++ "Conn2:".toList :: ([" - [1, 2]".toList] ++ "- [1.5, 2, 3]".toList :: [[]])) = .error .value :=
  C107_partial toy exBlocks exOk "Conn2:".toList "Conn2".toList [" - [1, 2]".toList] [["1".toList, "2".toList]] (.ints [[1, 2]])
    ⟨⟨"Conn2:".toList, .inl rfl, by decide, by decide +kernel⟩, by decide, by decide, .cons exRow1 .nil, by simp,
      ⟨2, by omega, by decide⟩, .inl ⟨_, rfl, .cons (.cons (by decide +kernel) (.cons (by decide +kernel) .nil)) .nil⟩⟩
    _ ["1.5".toList, "2".toList, "3".toList] _
    (exDash _ [' '] ["1.5".toList, " 2".toList, " 3".toList] "- [1.5, 2, 3]".toList [] _ (.inr rfl) (by decide) (by decide +kernel) rfl
      (by decide) (by decide +kernel)) (by decide) (by decide) (by decide)

/-- **C108** is violated: a matrix whose first row has only integers and another row a real number is
refused. -/
theorem C108_fails : read toy ["a:".toList, "- [1, 2]".toList, "- [3.5, 4]".toList] = .error .value ∧
    read toy ["a:".toList, "- [3.5, 4]".toList, "- [1, 2]".toList] = .ok [("a".toList, .floats [[35, 4], [1, 2]])] := by
  decide +kernel

/-- **C108** A matrix of real numbers with one in its first row which is not an integer is read. -/
theorem C108_partial {F : Type} (φ : Num F) (l key : Str) (ls : List Str) (rows : List (List Str)) (m : List (List F))
    (hl : Reads l (key ++ [':'])) (hk : ':' ∉ key) (hd : key.head? ≠ some '-') (hr : List.Forall₂ DashRow ls rows)
    (hw : ∃ k, 1 ≤ k ∧ ∀ r ∈ rows, r.length = k ∧ ∀ w ∈ r, w ≠ [])
    (hm : List.Forall₂ (List.Forall₂ (fun w x => φ.flt w = some x)) rows m) (hf : ∃ w ∈ rows.headD [], φ.int w = none) :
    read φ (l :: ls) = .ok [(key, .floats m)] := by
  have hne : rows ≠ [] := by
    rintro rfl
    obtain ⟨w, hw', -⟩ := hf
    simp at hw'
  have := C106 φ [.mat l key ls rows (.floats m)] (by
    intro b hb
    rw [List.mem_singleton.1 hb]
    exact ⟨hl, hk, hd, hr, hne, hw, .inr ⟨m, rfl, hm, hf⟩⟩) (by simp [Block.entry])
  simpa [Block.lines, Block.entry] using this

end Verif.Yaml
