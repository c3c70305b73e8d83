import Verif.Spec.WriteTest
import Verif.Props.AsciiComp
import Verif.Py.Dec
/-!
# Lemmas on the tests of writing
-/
namespace Verif.WriteTest
open Verif.Py
open Verif.AsciiComp (FS asciiComp content)

theorem takeWhile_append_stop (p : Char → Bool) (a b : Str) (ha : ∀ x ∈ a, p x = true) (hb : ∀ x, b.head? = some x → p x = false) :
    (a ++ b).takeWhile p = a ∧ (a ++ b).dropWhile p = b := by
  induction a with
  | nil =>
    cases b with
    | nil => simp
    | cons x b => simp [hb x rfl]
  | cons x a ih =>
    have hx := ha x (by simp)
    have := ih (fun y hy => ha y (by simp [hy]))
    simp [hx, this]

theorem afterSlash_eq (dir base : Str) (hd : dir = [] ∨ dir.getLast? = some '/') (hb : '/' ∉ base) :
    Detect.afterSlash (dir ++ base) = base := by
  rw [Detect.afterSlash, List.reverse_append]
  rw [(takeWhile_append_stop (fun x => decide (x ≠ '/')) base.reverse dir.reverse (by
    intro x hx
    have : x ∈ base := by simpa using hx
    exact decide_eq_true (fun (h : x = '/') => hb (h ▸ this))) (by
    intro x hx
    rw [List.head?_reverse] at hx
    rcases hd with rfl | hd
    · simp at hx
    · rw [hd] at hx; cases hx; rfl)).1, List.reverse_reverse]

theorem splitextExt_suffix (p : Str) : Detect.splitextExt p <:+ p := by
  have h1 : Detect.afterSlash p <:+ p := by
    rw [Detect.afterSlash, ← List.reverse_prefix, List.reverse_reverse]
    exact List.takeWhile_prefix _
  refine List.IsSuffix.trans ?_ h1
  rw [Detect.splitextExt]
  generalize Detect.afterSlash p = b
  have hb := List.takeWhile_append_dropWhile (p := fun x => decide (x ≠ '.')) (l := b.reverse)
  cases hd : b.reverse.dropWhile (fun x => decide (x ≠ '.')) with
  | nil => exact List.nil_suffix
  | cons c rest =>
    have hc : c = '.' := by
      have := List.head?_dropWhile_not (fun x => decide (x ≠ '.')) b.reverse
      rw [hd] at this
      simpa using this
    simp only
    split
    · refine ⟨rest.reverse, ?_⟩
      rw [hd, hc] at hb
      have := congrArg List.reverse hb
      rw [List.reverse_reverse, List.reverse_append, List.reverse_cons] at this
      refine Eq.trans ?_ this
      simp
    · exact List.nil_suffix

theorem splitext_join (p : Str) : (splitext p).1 ++ (splitext p).2 = p := by
  obtain ⟨q, hq⟩ := splitextExt_suffix p
  rw [splitext]
  simp only
  generalize Detect.splitextExt p = e at hq
  subst hq
  simp

theorem tmp_ne (p : Str) : tmpName p ≠ p ∧ tmp2Name p ≠ p ∧ tmpName p ≠ tmp2Name p := by
  have hj := congrArg List.length (splitext_join p)
  rw [List.length_append] at hj
  have h1 : (tmpName p).length = p.length + 4 := by
    rw [tmpName, List.length_append, List.length_append, ← hj]
    show _ + 4 + _ = _
    omega
  have h2 : (tmp2Name p).length = p.length + 5 := by
    rw [tmp2Name, List.length_append, List.length_append, ← hj]
    show _ + 5 + _ = _
    omega
  refine ⟨fun h => ?_, fun h => ?_, fun h => ?_⟩
  · rw [h] at h1; omega
  · rw [h] at h2; omega
  · rw [h] at h1; omega

theorem write_frame (h : Hooks δ) (s : St δ) (name p : Str) (hp : p ≠ name) : (write h s name).1.fs p = s.fs p := by
  rw [write]
  split <;> simp [setFile, hp]

theorem write_name (h : Hooks δ) (s : St δ) (name : Str) :
    (write h s name).1.filename = name ∧ (write h s name).1.data = s.data := by
  rw [write]
  split <;> exact ⟨rfl, rfl⟩

theorem read_frame (h : Hooks δ) (s : St δ) (name : Str) :
    (read h s name).1.fs = s.fs ∧ (read h s name).1.filename = name := by
  rw [read]
  split <;> exact ⟨rfl, rfl⟩

theorem twr_frame (h : Hooks δ) (s : St δ) (b : Bool) :
    (∀ p, p ≠ tmpName s.filename → (testWriteRead h s b).1.fs p = s.fs p) ∧
    (testWriteRead h s b).1.filename = tmpName s.filename := by
  have hw := write_frame h s (tmpName s.filename)
  have hn := write_name h s (tmpName s.filename)
  rw [testWriteRead]
  cases hW : write h s (tmpName s.filename) with
  | mk s1 o =>
    rw [hW] at hw hn
    cases o with
    | some e => exact ⟨hw, hn.1⟩
    | none =>
      simp only
      have hr := read_frame h s1 (tmpName s.filename)
      cases hR : read h s1 (tmpName s.filename) with
      | mk s2 o2 =>
        rw [hR] at hr
        simp only at hr hw hn
        cases o2 with
        | some e =>
          refine ⟨fun p hp => ?_, hr.2⟩
          show s2.fs p = _
          rw [hr.1]; exact hw p hp
        | none =>
          cases b with
          | false =>
            refine ⟨fun p hp => ?_, hr.2⟩
            show s2.fs p = _
            rw [hr.1]; exact hw p hp
          | true =>
            refine ⟨fun p hp => ?_, hr.2⟩
            show setFile s2.fs _ none p = _
            rw [setFile, if_neg hp, hr.1]; exact hw p hp

theorem twr_ok (h : Hooks δ) (s : St δ) (b : Bool) (c : Char) (t : Str) (d : δ) (hw : h.emit s.data = (some (c :: t), none))
    (hp : h.parse s.data (c :: t) = (d, none)) :
    testWriteRead h s b =
      ({ fs := setFile s.fs (tmpName s.filename) (if b then none else some (c :: t)), filename := tmpName s.filename, data := d },
        .ok (tmpName s.filename)) := by
  rw [testWriteRead]
  simp only [write, hw]
  have : setFile s.fs (tmpName s.filename) (some (c :: t)) (tmpName s.filename) = some (c :: t) := by simp [setFile]
  simp only [read, this, hp]
  cases b with
  | false => rfl
  | true =>
    simp only [if_true, Prod.mk.injEq, and_true, St.mk.injEq]
    funext p
    simp only [setFile]
    split <;> rfl

theorem read_ok (h : Hooks δ) (s : St δ) (name : Str) (hr : (read h s name).2 = none) :
    ∃ c t, s.fs name = some (c :: t) ∧ h.parse s.data (c :: t) = ((read h s name).1.data, none) := by
  rw [read] at hr ⊢
  cases hF : s.fs name with
  | none => rw [hF] at hr; cases hr
  | some t =>
    cases t with
    | nil => rw [hF] at hr; cases hr
    | cons c t =>
      rw [hF] at hr
      exact ⟨c, t, rfl, Prod.ext rfl hr⟩

theorem twr_inv (h : Hooks δ) (s : St δ) (b : Bool) (name : Str) (hok : (testWriteRead h s b).2 = .ok name) :
    (write h s (tmpName s.filename)).2 = none ∧
    (read h (write h s (tmpName s.filename)).1 (tmpName s.filename)).2 = none ∧
    (testWriteRead h s b).1.data = (read h (write h s (tmpName s.filename)).1 (tmpName s.filename)).1.data ∧
    name = tmpName s.filename := by
  rw [testWriteRead] at hok ⊢
  cases hW : write h s (tmpName s.filename) with
  | mk s1 o =>
    simp only [hW] at hok ⊢
    cases o with
    | some e => cases hok
    | none =>
      simp only at hok ⊢
      cases hR : read h s1 (tmpName s.filename) with
      | mk s2 o2 =>
        simp only [hR] at hok ⊢
        cases o2 with
        | some e => cases hok
        | none =>
          simp only at hok ⊢
          cases hok
          refine ⟨trivial, trivial, ?_, rfl⟩
          cases b <;> rfl

theorem compare_frame (s : St δ) (f1 f2 : Str) (w b : Bool) (p : Str) (h1 : w = true → p ≠ f1) (h2 : p ≠ f2) :
    (compare s f1 f2 w b).1.fs p = s.fs p := by
  have hd := (AsciiComp.C47_delete s.fs f1 f2 b).1 p (.inl h2)
  rw [compare]
  cases hA : asciiComp s.fs f1 f2 b with
  | mk fs o =>
    rw [hA] at hd
    simp only at hd
    match o with
    | none => rfl
    | some false => exact hd
    | some true =>
      simp only
      cases w <;> cases b <;> simp_all [setFile]

theorem compare_name (s : St δ) (f1 f2 : Str) (w b : Bool) :
    (compare s f1 f2 w b).1.filename = s.filename ∧ (compare s f1 f2 w b).1.data = s.data := by
  rw [compare]
  split <;> exact ⟨rfl, rfl⟩

/-- the comparison of two files that are there -/
theorem compare_eq (s : St δ) (f1 f2 t u : Str) (w b : Bool) (h1 : s.fs f1 = some t) (h2 : s.fs f2 = some u) :
    (content t = content u → compare s f1 f2 w b =
      ({ s with fs := if b then (if w then setFile (setFile s.fs f2 none) f1 none else setFile s.fs f2 none) else s.fs },
        .ok ())) ∧
    ('|' ∉ t → '|' ∉ u → t ≠ [] → u ≠ [] → content t ≠ content u →
      compare s f1 f2 w b = (s, .error (.differ f1 f2))) := by
  constructor
  · intro hc
    have hA := AsciiComp.C47_blanks s.fs f1 f2 t u b h1 h2 hc
    have : asciiComp s.fs f1 f2 b = (if b then setFile s.fs f2 none else s.fs, some true) := by
      rw [asciiComp, h1, h2] at hA ⊢
      simp only at hA ⊢
      split
      · rfl
      · rename_i hn; rw [if_neg hn] at hA; cases hA
    rw [compare, this]
    cases w <;> cases b <;> rfl
  · intro ht hu ht' hu' hc
    have hA := AsciiComp.C47_partial s.fs f1 f2 t u b h1 h2 ht hu ht' hu' hc
    have : asciiComp s.fs f1 f2 b = (s.fs, some false) := by
      rw [asciiComp, h1, h2] at hA ⊢
      simp only at hA ⊢
      split
      · rename_i hn; rw [if_pos hn] at hA; cases hA
      · rfl
    rw [compare, this]

end Verif.WriteTest
