import Verif.Spec.SumFrame
import Verif.Props.Summary
import Verif.Lemmas.Str
import Verif.Lemmas.FastLine
/-!
# Lemmas on the table of a SubDyn summary file
-/
namespace Verif.Summary
open Verif.Py

theorem dofLoop_pos (D : Data) (inodes : List Nat) (U U' : List (List ℚ)) (l : List Nat) (i : Nat) (a a' b b' : Arr) (hp : a.pos = b.pos)
    (ha : dofLoop D inodes U i l a = .ok a') (hb : dofLoop D inodes U' i l b = .ok b') : a'.pos = b'.pos := by
  induction l generalizing i a b with
  | nil =>
    injection ha with ha
    injection hb with hb
    rw [← ha, ← hb, hp]
  | cons x l ih =>
    unfold dofLoop at ha hb
    cases hs : dofStep D inodes U a i x with
    | error e => rw [hs] at ha; cases ha
    | ok a1 =>
      cases hs' : dofStep D inodes U' b i x with
      | error e => rw [hs'] at hb; cases hb
      | ok b1 =>
        rw [hs] at ha
        rw [hs'] at hb
        refine ih (i + 1) a1 b1 ?_ ha hb
        unfold dofStep at hs hs'
        cases hd : D.dofs[x]? with
        | none => rw [hd] at hs; cases hs
        | some nd =>
          obtain ⟨node, dir⟩ := nd
          rw [hd] at hs hs'
          simp only at hs hs'
          by_cases h3 : dir ≤ 3
          · rw [if_pos h3] at hs hs'
            cases hn : D.nodes[node - 1]? with
            | none => rw [hn] at hs; cases hs
            | some p =>
              cases hu : U[i]? with
              | none => rw [hn, hu] at hs; cases hs
              | some r =>
                cases hu' : U'[i]? with
                | none => rw [hn, hu'] at hs'; cases hs'
                | some r' =>
                  rw [hn, hu] at hs
                  rw [hn, hu'] at hs'
                  injection hs with hs
                  injection hs' with hs'
                  rw [← hs, ← hs', hp]
          · rw [if_neg h3] at hs hs'
            injection hs with hs
            injection hs' with hs'
            rw [← hs, ← hs', hp]

theorem nodesDisp_same (E : Env) (D : Data) (l : List Nat) (n n' : Nat) (U U' : List (List ℚ)) (md : Option ℚ) (sd : Option Nat) (s s' : Shapes)
    (h : nodesDisp E D l n U md sd = .ok s) (h' : nodesDisp E D l n' U' md sd = .ok s') : s.inodes = s'.inodes ∧ s.pos = s'.pos := by
  unfold nodesDisp at h h'
  split at h
  · cases h
  · rename_i hb
    rw [if_neg hb] at h'
    simp only at h h'
    cases ha : dofLoop D (sortU (l.map fun i => (D.dofs.getD i (0, 0)).1)) U 0 l Arr.empty with
    | error e => rw [ha] at h; cases h
    | ok a =>
      cases ha' : dofLoop D (sortU (l.map fun i => (D.dofs.getD i (0, 0)).1)) U' 0 l Arr.empty with
      | error e => rw [ha'] at h'; cases h'
      | ok a' =>
        rw [ha] at h
        rw [ha'] at h'
        injection h with h
        injection h' with h'
        have hp : ∀ n, (scaled n a md).pos = (scaled n a' md).pos := by
          intro n
          have := dofLoop_pos D _ U U' l 0 _ _ _ _ rfl ha ha'
          cases md <;> exact this
        have ho : ∀ n, order E n (scaled n a md) sd = order E n (scaled n a' md) sd := by
          intro n
          cases sd with
          | none => rfl
          | some d => simp only [order, hp]
        rw [← h, ← h']
        simp only [ho, hp, and_self]

theorem nodesDisp_len (E : Env) (D : Data) (l : List Nat) (n : Nat) (U : List (List ℚ)) (md : Option ℚ) (sd : Option Nat) (s : Shapes)
    (h : nodesDisp E D l n U md sd = .ok s) : s.pos.length = s.inodes.length ∧ s.disp.length = s.inodes.length := by
  unfold nodesDisp at h
  split at h
  · cases h
  · simp only at h
    split at h
    · cases h
    · injection h with h
      rw [← h]
      simp

theorem getModes_same (E : Env) (self data : Data) (md : Option ℚ) (sd : Option Nat) (m : Modes) (h : getModes E self data md sd = .ok m) :
    m.gy.inodes = m.cb.inodes ∧ m.gy.pos = m.cb.pos ∧ m.gy.pos.length = m.gy.inodes.length ∧ m.gy.disp.length = m.gy.inodes.length ∧
      m.cb.disp.length = m.gy.inodes.length := by
  have key : ∀ q, modesOf E data q sd = .ok m → m.gy.inodes = m.cb.inodes ∧ m.gy.pos = m.cb.pos ∧ m.gy.pos.length = m.gy.inodes.length ∧
      m.gy.disp.length = m.gy.inodes.length ∧ m.cb.disp.length = m.gy.inodes.length := by
    intro q h
    unfold modesOf at h
    simp only at h
    split at h
    · cases h
    · rename_i cb hcb
      split at h
      · cases h
      · split at h
        · cases h
        · rename_i gy hgy
          injection h with h
          rw [← h]
          obtain ⟨e1, e2⟩ := nodesDisp_same E data _ _ _ _ _ _ _ _ _ hgy hcb
          have l1 := nodesDisp_len E data _ _ _ _ _ _ hgy
          have l2 := nodesDisp_len E data _ _ _ _ _ _ hcb
          exact ⟨e1, e2, l1.1, l1.2, by rw [l2.2]; exact congrArg List.length e1.symm⟩
  unfold getModes at h
  split at h
  · exact key _ h
  · split at h
    · cases h
    · exact key _ h

theorem dispAt_number (sh : Shapes) (ii k s : Nat) (d : List (List (Option ℚ))) (h : sh.disp[ii]? = some d) : dispAt sh ii k s = number d k s := by
  rw [dispAt, h, number, Option.bind_some]
  cases d[k]? with
  | none => rfl
  | some r =>
    simp only [Option.bind_some]
    cases r[s]? with
    | none => rfl
    | some o => cases o <;> rfl

theorem dispCol_eq (sh : Shapes) (hl : sh.pos.length = sh.disp.length) (s k : Nat) : dispCol sh s k = sh.disp.map fun d => some (number d k s) := by
  rw [dispCol, hl]
  refine List.ext_getElem? fun i => ?_
  by_cases hi : i < sh.disp.length
  · have e := List.getElem?_eq_getElem hi
    rw [List.getElem?_map, List.getElem?_map, List.getElem?_range hi, e, Option.map_some, Option.map_some, dispAt_number sh i k s _ e]
  · rw [List.getElem?_eq_none (by simpa using hi), List.getElem?_eq_none (by simpa using hi)]

theorem moves_iff (sh : Shapes) (hl : sh.pos.length = sh.disp.length) (s k : Nat) : moves sh (s, k) = true ↔ ∃ d ∈ sh.disp, number d k s ≠ 0 := by
  rw [moves, dispCol_eq sh hl]
  simp

theorem mem_places (ns s k : Nat) : (s, k) ∈ places ns ↔ s < ns ∧ k < 3 := by
  simp [places]

theorem places_nodup (ns : Nat) : (places ns).Nodup := by
  rw [places, List.nodup_flatMap]
  refine ⟨fun s _ => (List.nodup_range).map fun a b h => (Prod.mk.inj h).2, ?_⟩
  refine (List.nodup_range (n := ns)).imp ?_
  intro a b hab x hx hx'
  obtain ⟨i, -, rfl⟩ := List.mem_map.1 hx
  obtain ⟨j, -, e⟩ := List.mem_map.1 hx'
  exact hab (Prod.mk.inj e).1.symm

theorem digit_ne (n : Nat) : ∀ c ∈ Nat.toDigits 10 n, c.isDigit = true := fun _ hc => Nat.isDigit_of_mem_toDigits (b := 10) (n := n) (by decide) (by decide) hc

theorem replaceN_absent (a : Char) (as b : Str) (n : Nat) (s : Str) (h : a ∉ s) : Hawc2.replaceN (a :: as) b n s = s := by
  induction n generalizing s with
  | zero => rfl
  | succ n ih =>
    cases s with
    | nil => rfl
    | cons c s =>
      have hc : a ≠ c := fun e => h (by rw [e]; exact List.mem_cons_self)
      rw [Hawc2.replaceN, if_neg (by simp [List.isPrefixOf, hc]), ih s fun hm => h (List.mem_cons_of_mem _ hm)]

theorem M_notMem (s k : Nat) : 'M' ∉ Nat.toDigits 10 (s + 1) ++ dirName k :: "_[m]".toList := by
  intro h
  rcases List.mem_append.1 h with h | h
  · exact absurd (digit_ne _ _ h) (by decide)
  · rcases List.mem_cons.1 h with h | h
    · revert h
      rw [dirName]
      split_ifs <;> decide
    · exact absurd h (by decide)

theorem replace_guyan (s k : Nat) : Hawc2.replace "Mode".toList "Disp".toList (modeLabel "Guyan" s k) = label "GuyanDisp" s k := by
  have h := replaceN_absent 'M' "ode".toList "Disp".toList
  have hm := M_notMem s k
  rw [modeLabel, label, Hawc2.replace]
  change _ = "GuyanDisp".toList ++ (Nat.toDigits 10 (s + 1) ++ dirName k :: "_[m]".toList)
  generalize Nat.toDigits 10 (s + 1) ++ dirName k :: "_[m]".toList = t at hm
  have e : "Guyan".toList ++ ("Mode".toList ++ t) = 'G' :: 'u' :: 'y' :: 'a' :: 'n' :: 'M' :: 'o' :: 'd' :: 'e' :: t := rfl
  rw [e]
  simp only [List.length_cons]
  have e2 : "Mode".toList = ['M', 'o', 'd', 'e'] := rfl
  rw [e2]
  simp only [Hawc2.replaceN, List.isPrefixOf, Bool.and_true]
  simp only [show ('M' == 'G') = false from rfl, show ('M' == 'u') = false from rfl, show ('M' == 'y') = false from rfl,
    show ('M' == 'a') = false from rfl, show ('M' == 'n') = false from rfl, Bool.false_and, Bool.false_eq_true, if_false, beq_self_eq_true,
    Bool.and_self, if_true, List.length_cons, List.length_nil, List.drop_succ_cons, List.drop_zero]
  rw [show ['M', 'o', 'd', 'e'] = 'M' :: "ode".toList from rfl, h _ t hm]
  rfl

theorem replace_cb (s k : Nat) : Hawc2.replace "Mode".toList "Disp".toList (modeLabel "CB" s k) = label "CBDisp" s k := by
  have h := replaceN_absent 'M' "ode".toList "Disp".toList
  have hm := M_notMem s k
  rw [modeLabel, label, Hawc2.replace]
  change _ = "CBDisp".toList ++ (Nat.toDigits 10 (s + 1) ++ dirName k :: "_[m]".toList)
  generalize Nat.toDigits 10 (s + 1) ++ dirName k :: "_[m]".toList = t at hm
  have e : "CB".toList ++ ("Mode".toList ++ t) = 'C' :: 'B' :: 'M' :: 'o' :: 'd' :: 'e' :: t := rfl
  rw [e]
  simp only [List.length_cons]
  have e2 : "Mode".toList = ['M', 'o', 'd', 'e'] := rfl
  rw [e2]
  simp only [Hawc2.replaceN, List.isPrefixOf, Bool.and_true]
  simp only [show ('M' == 'C') = false from rfl, show ('M' == 'B') = false from rfl, Bool.false_and, Bool.false_eq_true, if_false, beq_self_eq_true,
    Bool.and_self, if_true, List.length_cons, List.length_nil, List.drop_succ_cons, List.drop_zero]
  rw [show ['M', 'o', 'd', 'e'] = 'M' :: "ode".toList from rfl, h _ t hm]
  rfl

/-- the beginnings of the labels -/
def pres : List String := ["GuyanMode", "CBMode", "GuyanDisp", "CBDisp"]

theorem takeWhile_stop (p : Char → Bool) (a b : Str) (c : Char) (h : ∀ x ∈ a, p x = true) (hc : p c = false) : (a ++ c :: b).takeWhile p = a := by
  rw [List.takeWhile_append_of_pos h, List.takeWhile_cons_of_neg (by simp [hc]), List.append_nil]

theorem label_inj {a b : String} {s s' k k' : Nat} (ha : a ∈ pres) (hb : b ∈ pres) (hk : k < 3) (hk' : k' < 3) (h : label a s k = label b s' k') :
    a = b ∧ s = s' ∧ k = k' := by
  have hnd : ∀ x ∈ pres, ∀ c ∈ x.toList, (!c.isDigit) = true := by decide
  obtain ⟨c, r, e, hc⟩ := FastLine.toDigits_cons (s + 1)
  obtain ⟨c', r', e', hc'⟩ := FastLine.toDigits_cons (s' + 1)
  have t1 : (label a s k).takeWhile (fun c => !c.isDigit) = a.toList := by
    rw [label, e, List.cons_append]
    exact takeWhile_stop _ _ _ _ (hnd a ha) (by simp [hc])
  have t2 : (label b s' k').takeWhile (fun c => !c.isDigit) = b.toList := by
    rw [label, e', List.cons_append]
    exact takeWhile_stop _ _ _ _ (hnd b hb) (by simp [hc'])
  rw [h, t2] at t1
  have hab : a = b := String.toList_inj.1 t1.symm
  subst hab
  have h2 := List.append_cancel_left (h : a.toList ++ _ = a.toList ++ _)
  have hdir : ∀ k, (if k = 0 then 'x' else if k = 1 then 'y' else 'z').isDigit = false := by
    intro k
    split_ifs <;> rfl
  have d1 := congrArg (List.takeWhile Char.isDigit) h2
  rw [takeWhile_stop _ _ _ _ (digit_ne _) (hdir _), takeWhile_stop _ _ _ _ (digit_ne _) (hdir _)] at d1
  have hs : s = s' := by
    have := congrArg (fun l => Nat.ofDigitChars 10 l 0) d1
    simp only [Nat.ofDigitChars_ten_toDigits] at this
    omega
  subst hs
  have h3 := (List.cons.inj (List.append_cancel_left h2)).1
  refine ⟨rfl, rfl, ?_⟩
  revert h3
  have : ∀ k < 3, ∀ k' < 3, (if k = 0 then 'x' else if k = 1 then 'y' else 'z') = (if k' = 0 then 'x' else if k' = 1 then 'y' else 'z') → k = k' := by decide
  exact this k hk k' hk'

theorem label_ne (a : String) (ha : a ∈ pres) (s k : Nat) (x : Char) (hx : x ∈ ['x', 'y', 'z']) : label a s k ≠ x :: "_[m]".toList := by
  intro h
  have hh := congrArg List.head? h
  rw [label] at hh
  simp only [pres, List.mem_cons, List.not_mem_nil, or_false] at ha hx
  rcases ha with rfl | rfl | rfl | rfl <;> rcases hx with rfl | rfl | rfl <;> simp at hh

theorem lookup_mem {df : List Column} (hn : (df.map Prod.fst).Nodup) (c : Column) (h : c ∈ df) : df.lookup c.1 = some c.2 := by
  induction df with
  | nil => cases h
  | cons x df ih =>
    rw [List.map_cons, List.nodup_cons] at hn
    rcases List.mem_cons.1 h with rfl | h
    · exact List.lookup_cons_self
    · have : c.1 ≠ x.1 := fun e => hn.1 (e ▸ List.mem_map_of_mem h)
      rw [List.lookup_cons, beq_false_of_ne this]
      exact ih hn.2 h

theorem lookup_absent {df : List Column} (k : Str) (h : k ∉ df.map Prod.fst) : df.lookup k = none := by
  rw [List.lookup_eq_none_iff]
  intro p hp
  simp only [bne_iff_ne, beq_eq_false_iff_ne]
  intro e
  exact h (by rw [e]; exact List.mem_map_of_mem hp)

theorem beside_same (cols : List Column) (n : Nat) (h : ∀ c ∈ cols, c.2.length = n) : beside cols = cols := by
  have hle : ∀ l : List Nat, (∀ x ∈ l, x = n) → l.foldr max 0 ≤ n := by
    intro l
    induction l with
    | nil => intro _; exact Nat.zero_le _
    | cons x l ih =>
      intro hl
      rw [List.foldr_cons, hl x List.mem_cons_self]
      exact max_le (le_refl _) (ih fun y hy => hl y (List.mem_cons_of_mem _ hy))
  have hm := hle (cols.map fun c => c.2.length) (fun x hx => by
    obtain ⟨c, hc, rfl⟩ := List.mem_map.1 hx
    exact h c hc)
  rw [beside]
  conv_rhs => rw [← List.map_id cols]
  refine List.map_congr_left fun c hc => ?_
  rw [h c hc]
  have : (cols.map fun c => c.2.length).foldr max 0 - n = 0 := by omega
  simp only [this, List.replicate_zero, List.append_nil]
  rfl

/-- the columns of the modes -/
def cols (sh : Shapes) (ns : Nat) (pre : String) (f : Shapes → Nat → Nat → List (Option ℚ)) : List Column :=
  ((places ns).filter (moves sh)).map fun p => (label pre p.1 p.2, f sh p.1 p.2)

theorem cols_labels (sh : Shapes) (ns : Nat) (pre : String) (hp : pre ∈ pres) (f : Shapes → Nat → Nat → List (Option ℚ)) :
    ((cols sh ns pre f).map Prod.fst).Nodup ∧ ∀ l ∈ (cols sh ns pre f).map Prod.fst, ∃ s k, k < 3 ∧ l = label pre s k := by
  rw [cols, List.map_map]
  constructor
  · refine List.Nodup.map_on ?_ ((places_nodup ns).filter _)
    rintro ⟨s, k⟩ h1 ⟨s', k'⟩ h2 e
    have h1 := (mem_places ns s k).1 (List.mem_filter.1 h1).1
    have h2 := (mem_places ns s' k').1 (List.mem_filter.1 h2).1
    obtain ⟨-, rfl, rfl⟩ := label_inj hp hp h1.2 h2.2 e
    rfl
  · intro l hl
    obtain ⟨⟨s, k⟩, h1, rfl⟩ := List.mem_map.1 hl
    exact ⟨s, k, ((mem_places ns s k).1 (List.mem_filter.1 h1).1).2, rfl⟩

theorem frame_eq (E : Env) (self data : Data) (df : List Column) (h : toDataFrame E self data = .ok df) :
    ∃ m, getModes E self data none (some 2) = .ok m ∧
      df = zxy m.gy ++ (cols m.gy data.nR "GuyanMode" totCol ++ (cols m.cb data.nCB "CBMode" totCol ++
        (cols m.gy data.nR "GuyanDisp" dispCol ++ cols m.cb data.nCB "CBDisp" dispCol))) := by
  unfold toDataFrame at h
  split at h
  · cases h
  · rename_i m hm
    injection h with h
    refine ⟨m, hm, ?_⟩
    obtain ⟨-, e2, -⟩ := getModes_same E self data _ _ m hm
    rw [← h, beside_same _ m.gy.pos.length]
    · simp only [toDF, cols, replace_guyan, replace_cb, List.append_assoc]
      rfl
    · intro c hc
      simp only [List.mem_append, toDF, zxy, List.mem_map, List.mem_cons, List.not_mem_nil, or_false] at hc
      rcases hc with (((hc | ⟨p, -, rfl⟩) | ⟨p, -, rfl⟩) | ⟨p, -, rfl⟩) | ⟨p, -, rfl⟩
      · rcases hc with rfl | rfl | rfl <;> simp
      all_goals simp [totCol, dispCol, e2]

theorem frame_nodup (g c : Shapes) (n n' : Nat) : ((zxy g ++ (cols g n "GuyanMode" totCol ++ (cols c n' "CBMode" totCol ++
    (cols g n "GuyanDisp" dispCol ++ cols c n' "CBDisp" dispCol)))).map Prod.fst).Nodup := by
  simp only [List.map_append]
  obtain ⟨n1, l1⟩ := cols_labels g n "GuyanMode" (by decide) totCol
  obtain ⟨n2, l2⟩ := cols_labels c n' "CBMode" (by decide) totCol
  obtain ⟨n3, l3⟩ := cols_labels g n "GuyanDisp" (by decide) dispCol
  obtain ⟨n4, l4⟩ := cols_labels c n' "CBDisp" (by decide) dispCol
  have hdis : ∀ {A B : List Str} {a b : String}, a ∈ pres → b ∈ pres → a ≠ b → (∀ l ∈ A, ∃ s k, k < 3 ∧ l = label a s k) →
      (∀ l ∈ B, ∃ s k, k < 3 ∧ l = label b s k) → List.Disjoint A B := by
    intro A B a b ha hb hne hA hB l h1 h2
    obtain ⟨s, k, hk, rfl⟩ := hA l h1
    obtain ⟨s', k', hk', e⟩ := hB _ h2
    exact hne (label_inj ha hb hk hk' e).1
  have hz : ∀ {B : List Str} {b : String}, b ∈ pres → (∀ l ∈ B, ∃ s k, k < 3 ∧ l = label b s k) → List.Disjoint ((zxy g).map Prod.fst) B := by
    intro B b hb hB l h1 h2
    obtain ⟨s, k, hk, rfl⟩ := hB l h2
    simp only [zxy, List.map_cons, List.map_nil, List.mem_cons, List.not_mem_nil, or_false] at h1
    rcases h1 with h1 | h1 | h1
    · exact label_ne b hb s k 'z' (by decide) h1
    · exact label_ne b hb s k 'x' (by decide) h1
    · exact label_ne b hb s k 'y' (by decide) h1
  have dapp : ∀ {A B C : List Str}, List.Disjoint A B → List.Disjoint A C → List.Disjoint A (B ++ C) := fun h1 h2 => List.disjoint_append_right.2 ⟨h1, h2⟩
  refine List.Nodup.append ?_ (List.Nodup.append n1 (List.Nodup.append n2 (List.Nodup.append n3 n4 ?_) ?_) ?_) ?_
  · show ["z_[m]".toList, "x_[m]".toList, "y_[m]".toList].Nodup
    decide
  · exact hdis (by decide) (by decide) (by decide) l3 l4
  · exact dapp (hdis (by decide) (by decide) (by decide) l2 l3) (hdis (by decide) (by decide) (by decide) l2 l4)
  · exact dapp (hdis (by decide) (by decide) (by decide) l1 l2) (dapp (hdis (by decide) (by decide) (by decide) l1 l3) (hdis (by decide) (by decide) (by decide) l1 l4))
  · exact dapp (hz (by decide) l1) (dapp (hz (by decide) l2) (dapp (hz (by decide) l3) (hz (by decide) l4)))

/-- a label of a mode that does not move is in no other columns -/
theorem absent (sh : Shapes) (ns : Nat) (pre pre' : String) (hp : pre ∈ pres) (hp' : pre' ∈ pres) (f : Shapes → Nat → Nat → List (Option ℚ)) (s k : Nat)
    (hk : k < 3) (h : pre = pre' → moves sh (s, k) = false) : label pre s k ∉ (cols sh ns pre' f).map Prod.fst := by
  intro hm
  rw [cols, List.map_map] at hm
  obtain ⟨⟨s', k'⟩, h1, h2⟩ := List.mem_map.1 hm
  obtain ⟨h3, h4⟩ := List.mem_filter.1 h1
  obtain ⟨e1, e2, e3⟩ := label_inj hp' hp ((mem_places ns s' k').1 h3).2 hk h2
  subst e2
  subst e3
  rw [h e1.symm] at h4
  cases h4

theorem says_of (df : List Column) (hn : (df.map Prod.fst).Nodup) (sh : Shapes) (ns : Nat) (pre : String) (hl : sh.pos.length = sh.disp.length)
    (hi : sh.pos.length = sh.inodes.length)
    (h1 : ∀ c ∈ cols sh ns (pre ++ "Mode") totCol, c ∈ df) (h2 : ∀ c ∈ cols sh ns (pre ++ "Disp") dispCol, c ∈ df)
    (h3 : ∀ s k, k < 3 → moves sh (s, k) = false → label (pre ++ "Disp") s k ∉ df.map Prod.fst ∧ label (pre ++ "Mode") s k ∉ df.map Prod.fst) :
    Says df sh ns pre := by
  intro s hs k hk
  constructor
  · intro hmv
    have hmem : (s, k) ∈ (places ns).filter (moves sh) := List.mem_filter.2 ⟨(mem_places ns s k).2 ⟨hs, hk⟩, (moves_iff sh hl s k).2 hmv⟩
    constructor
    · have := lookup_mem hn _ (h2 _ (List.mem_map_of_mem hmem))
      rw [← dispCol_eq sh hl]
      exact this
    · refine ⟨_, lookup_mem hn _ (h1 _ (List.mem_map_of_mem hmem)), by simp [totCol, hi], ?_⟩
      intro ii p d hp hd
      have hlt : ii < sh.pos.length := (List.getElem?_eq_some_iff.1 hp).1
      simp only [totCol, List.getElem?_map, List.getElem?_range hlt, Option.map_some, posAt, hp, Option.bind_some, id, dispAt_number sh ii k s d hd]
  · intro hz
    have : moves sh (s, k) = false := by
      rw [← Bool.not_eq_true, moves_iff sh hl]
      rintro ⟨d, hd, hne⟩
      exact hne (hz d hd)
    obtain ⟨a1, a2⟩ := h3 s k hk this
    exact ⟨lookup_absent _ a1, lookup_absent _ a2⟩

end Verif.Summary
