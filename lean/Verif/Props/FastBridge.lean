import Verif.Props.FastFile
import Verif.Props.FastRead
/-!
# The reader of key/value files and the reader of whole files

`Model/FastLine` reads files made of key/value lines and comments and gives up
(`unmodelled`) at the first table or section; `Model/FastRead` reads whole files.
Here: whenever the first does not give up, the second gives the same result, so that
C12, C13, C53 and C54, stated on the first, hold of the whole reader.
-/
namespace Verif.FastBridge
open Verif.Py Verif.FastLine Verif.FastRead
open Verif.FastDict (Entry)

/-- the result of the small reader seen as a result of the whole reader -/
def asRead (F : Type) : Except Err (List (Entry (EVal F))) → Except RErr (List (Item F))
  | .ok ds => .ok (ds.map Item.ofEntry)
  | .error .wrongFormat => .error .wrongFormat
  | .error .other => .error .other
  | .error .unmodelled => .error .unmodelled

/-- the states of the two loops agree -/
structure Agree {F : Type} (s : RState F) (t : St F) : Prop where
  data : t.data = s.data.map Item.ofEntry
  nC : t.nComments = s.nComments
  nW : t.nWrong = s.nWrongLabels
  allow : t.allow = s.allow
  off : t.off = []
  vals : t.vals = valKinds
  labs : t.labs = labKinds

theorem isSection_split (line : Str) (h : isSection line = false) :
    isOutSection line = false ∧ isSDSection line = false ∧
      hasInside line "ADDITIONAL STIFFNESS".toList = false ∧
      hasInside line "DISTRIBUTED PROPERTIES".toList = false := by
  unfold isSection at h
  unfold isOutSection isSDSection
  generalize hasInside line "ADDITIONAL OUTPUTS".toList = a at *
  generalize hasInside line "MESH-BASED OUTPUTS".toList = b at *
  generalize hasInside line "OUTPUT CHANNELS".toList = c at *
  generalize hasInside line "SSOUTLIST".toList = d at *
  generalize hasInside line "SDOUTLIST".toList = e at *
  generalize hasInside line "ADDITIONAL STIFFNESS".toList = f at *
  generalize hasInside line "DISTRIBUTED PROPERTIES".toList = g at *
  revert a b c d e f g; decide

theorem vals_eq : valKinds.map Kind.detect = tabValues := by decide +kernel

theorem labs_sub : ∀ k ∈ labKinds, tabLabels.contains k.detect = true := by decide +kernel

theorem fils_sub : ∀ k ∈ filKinds, tabLabels.contains k.1 = true := by decide +kernel

theorem re_mem : tabLabels.contains "re".toList = true := by decide +kernel
theorem nc_mem : tabLabels.contains "numcoords".toList = true := by decide +kernel

theorem find_none_of {α : Type} (ks : List α) (f : α → Str) (x : Str) (h : ∀ k ∈ ks, f k ≠ x) :
    ks.find? (fun k => f k == x) = none := by
  rw [List.find?_eq_none]
  intro k hk
  simpa using h k hk

/-- one line that is no table goes through the whole reader as through the small one -/
theorem tablePart_plain (N : Num) (n : Nat) (t : St N.F) (d : Entry (EVal N.F)) (i : Nat) (line : Str)
    (rest : List Str) (hv : t.vals = valKinds) (hl : t.labs = labKinds)
    (ht : isTable N.toPyFloat d = false) :
    tablePart N n t (lower d.label) (Item.ofEntry d) i line rest = finish n t (Item.ofEntry d) (i + 1) rest := by
  unfold isTable at ht
  rw [Bool.or_eq_false_iff] at ht
  obtain ⟨hlab, hval⟩ := ht
  have h1 : valKind t (Item.ofEntry d) = none := by
    unfold valKind strValue Item.ofEntry
    cases he : d.value with
    | list vs => simp
    | scalar v =>
      cases v with
      | str s =>
        simp only [hv]
        rw [he] at hval
        simp only at hval
        apply find_none_of valKinds Kind.detect
        intro k hk e
        have : lower s ∈ tabValues := by
          rw [← vals_eq, ← e]; exact List.mem_map_of_mem hk
        rw [List.contains_iff_mem.2 this] at hval
        simp at hval
      | _ => simp
  have h2 : t.labs.find? (fun k => k.detect == lower d.label) = none := by
    rw [hl]
    apply find_none_of labKinds Kind.detect
    intro k hk e
    have := labs_sub k hk
    rw [e, hlab] at this; simp at this
  have h3 : filKinds.find? (fun k => k.1 == lower (Item.ofEntry d).label) = none := by
    apply find_none_of filKinds (fun k => k.1)
    intro k hk e
    have := fils_sub k hk
    rw [e] at this
    have e2 : (Item.ofEntry d).label = d.label := rfl
    rw [e2, hlab] at this; simp at this
  unfold tablePart
  rw [h1]; simp only
  rw [h2]; simp only
  rw [h3]

/-- how the two loops agree after one line -/
def StepAgree {F : Type} (i : Nat) (rest : List Str) :
    Except Err (RState F) → Except RErr (Turn F) → Prop
  | .ok s', r => ∃ t', r = .ok (.go t' (i + 1) rest) ∧ Agree s' t' ∧ s'.i = i + 1
  | .error .wrongFormat, r => r = .error .wrongFormat
  | .error .other, r => r = .error .other
  | .error .unmodelled, _ => True

theorem turn_agree (N : Num) (n : Nat) (s : RState N.F) (t : St N.F) (i : Nat) (line : Str) (rest : List Str)
    (ha : Agree s t) (hi : s.i = i) :
    StepAgree i rest (step N.toPyFloat n s line) (turn N n t i line rest) := by
  unfold step
  by_cases hsec : isSection line = true
  · rw [if_pos hsec]; trivial
  · rw [if_neg hsec]
    obtain ⟨s1, s2, s3, s4⟩ := isSection_split line (by simpa using hsec)
    have hturn : turn N n t i line rest = linePart N n t i line rest := by
      unfold turn
      rw [if_neg (by simp [s1]), if_neg (by simp [s2]), if_neg (by rw [s3]; decide), if_neg (by rw [s4]; decide)]
    rw [hturn]
    unfold linePart
    rw [ha.allow]
    cases hp : parseLine N.toPyFloat s.allow line with
    | error e => cases e <;> simp [StepAgree, RErr.ofLine]
    | ok d =>
      simp only
      by_cases ht : isTable N.toPyFloat d = true
      · rw [if_pos ht]; trivial
      · rw [if_neg ht]
        have ht : isTable N.toPyFloat d = false := by simpa using ht
        have hd : ({ Item.ofEntry d with label := d.label ++ t.off } : Item N.F) = Item.ofEntry d := by
          rw [ha.off]; simp [Item.ofEntry]
        rw [hd]
        have hlab : tabLabels.contains (lower d.label) = false := by
          unfold isTable at ht; rw [Bool.or_eq_false_iff] at ht; exact ht.1
        have n1 : lower d.label ≠ "numcoords".toList := by
          intro e; rw [e, nc_mem] at hlab; simp at hlab
        have n2 : lower d.label ≠ "re".toList := by
          intro e; rw [e, re_mem] at hlab; simp at hlab
        rw [if_neg n1, if_neg n2]
        have hboth : (if lower d.label = "kp_total".toList then
              tablePart N n { t with allow := true } (lower d.label) (Item.ofEntry d) i line rest
            else tablePart N n t (lower d.label) (Item.ofEntry d) i line rest)
            = finish n { t with allow := if lower d.label = "kp_total".toList then true else s.allow }
                (Item.ofEntry d) (i + 1) rest := by
          split
          · exact tablePart_plain N n { t with allow := true } d i line rest ha.vals ha.labs ht
          · rw [tablePart_plain N n _ d i line rest ha.vals ha.labs ht, ← ha.allow]
        rw [hboth]
        generalize (if lower d.label = "kp_total".toList then true else s.allow) = al
        have ec : (Item.ofEntry d).isComment = d.isComment := rfl
        have el : (Item.ofEntry d).label = d.label := rfl
        unfold finish
        simp only [ec, el, ha.nC, ha.nW, hi]
        generalize (if d.isComment = true then s.nComments + 1 else s.nComments) = nC
        generalize (s.nWrongLabels + if (!d.isComment && hasSpecialChars d.label) = true then 1 else 0) +
          (if (!d.isComment && List.isEmpty d.label) = true then 1 else 0) = nW
        by_cases h1 : (!d.isComment && hasSpecialChars d.label && decide (3 < i + 1)) = true
        · rw [if_pos h1, if_pos h1]; rfl
        · rw [if_neg h1, if_neg h1]
          by_cases h2 : 100 * nC > 35 * n
          · rw [if_pos h2, if_pos h2]; rfl
          · rw [if_neg h2, if_neg h2]
            by_cases h3 : 10 * nW > n
            · rw [if_pos h3, if_pos h3]; rfl
            · rw [if_neg h3, if_neg h3]
              refine ⟨_, rfl, ⟨?_, rfl, rfl, rfl, ha.off, ha.vals, ha.labs⟩, rfl⟩
              simp [ha.data]

theorem loop_agree (N : Num) (n fuel : Nat) (lines : List Str) (s : RState N.F) (t : St N.F) (i : Nat)
    (ha : Agree s t) (hi : s.i = i) (hf : lines.length ≤ fuel)
    (hm : lines.foldlM (step N.toPyFloat n) s ≠ .error .unmodelled) :
    loop N n fuel t i lines = asRead N.F ((lines.foldlM (step N.toPyFloat n) s).map RState.data) := by
  induction lines generalizing s t i fuel with
  | nil =>
    cases fuel <;> simp [loop, asRead, pure, Except.pure, Except.map, ha.data]
  | cons l ls ih =>
    cases fuel with
    | zero => simp at hf
    | succ fuel =>
      have h := turn_agree N n s t i l ls ha hi
      rw [loop]
      simp only [List.foldlM_cons, bind, Except.bind] at hm ⊢
      cases hs : step N.toPyFloat n s l with
      | error e =>
        rw [hs] at h hm
        cases e with
        | wrongFormat => simp only [StepAgree] at h; rw [h]; simp [asRead, Except.map]
        | other => simp only [StepAgree] at h; rw [h]; simp [asRead, Except.map]
        | unmodelled => simp at hm
      | ok s' =>
        rw [hs] at h hm
        obtain ⟨t', h1, h2, h3⟩ := h
        rw [h1]
        simp only at hm ⊢
        exact ih fuel s' t' (i + 1) h2 h3 (by simpa using hf) hm

/-- **C12 (whole reader).** On a file that enters no table and no section, the whole
reader gives the entries of the small one, or refuses the file in the same way; one
turn of the loop per line is enough. -/
theorem C12_reader (N : Num) (fuel : Nat) (lines : List Str) (hf : lines.length ≤ fuel)
    (hm : FastLine.readLines N.toPyFloat lines ≠ .error .unmodelled) :
    FastRead.readLines N fuel lines = asRead N.F (FastLine.readLines N.toPyFloat lines) := by
  unfold FastLine.readLines at hm ⊢
  unfold FastRead.readLines
  cases he : isExtPtfm lines with
  | error e =>
    rw [he] at hm
    cases e <;> simp [asRead, RErr.ofLine]
  | ok b =>
    rw [he] at hm
    cases b with
    | true => simp at hm
    | false =>
      simp only at hm ⊢
      by_cases ha : isAD14 lines = true
      · rw [if_pos ha] at hm; simp at hm
      · rw [if_neg ha] at hm ⊢
        rw [if_neg ha]
        rw [loop_agree N lines.length fuel lines {} {} 0 ⟨rfl, rfl, rfl, rfl, rfl, rfl, rfl⟩ rfl hf]
        · cases lines.foldlM (step N.toPyFloat lines.length) {} <;> rfl
        · intro e; rw [e] at hm; simp at hm

/-- A file with a comment, a logical, a list and a quoted text. -/
def exLines : List Str :=
  ["---- header".toList, "True  Echo - echo".toList, "1, 2, 3 OutNds - nodes".toList, "\"a b.dat\" File - name".toList]

example : FastLine.readLines toyN.toPyFloat exLines ≠ .error .unmodelled ∧ (asRead toyN.F (FastLine.readLines toyN.toPyFloat exLines)).toBool = true ∧
    FastRead.readLines toyN 4 exLines = asRead toyN.F (FastLine.readLines toyN.toPyFloat exLines) := by
  have h : FastLine.readLines toyN.toPyFloat exLines ≠ .error .unmodelled := by
    intro e
    have : (FastLine.readLines toyN.toPyFloat exLines).toBool = true := by decide +kernel
    rw [e] at this; exact absurd this (by decide)
  exact ⟨h, by decide +kernel, C12_reader toyN 4 exLines (by decide) h⟩

/-- a line of the file makes the whole reader do something else than keep one entry: it
contains, not at its start, one of the section titles; or its label or its value opens a
table; or it is one of the labels `NumCoords`, `Re` -/
def Opens (N : Num) (line : Str) : Prop :=
  isOutSection line = true ∨ isSDSection line = true ∨
  hasInside line "ADDITIONAL STIFFNESS".toList = true ∨
  hasInside line "DISTRIBUTED PROPERTIES".toList = true ∨
  ∃ allow d, parseLine N.toPyFloat allow line = .ok d ∧
    ((∃ k ∈ labKinds, k.detect = lower d.label) ∨ (∃ k ∈ filKinds, k.1 = lower d.label) ∨
      lower d.label = "numcoords".toList ∨ lower d.label = "re".toList ∨
      ∃ k ∈ valKinds, ∃ t, d.value = .scalar (.str t) ∧ k.detect = lower t)

theorem isSection_opens (N : Num) (line : Str) (h : isSection line = true) : Opens N line := by
  unfold isSection at h
  unfold Opens isOutSection isSDSection
  simp only [Bool.or_eq_true] at h ⊢
  rcases h with ((((((h | h) | h) | h) | h) | h) | h)
  · exact .inl (.inl (.inl h))
  · exact .inl (.inl (.inr h))
  · exact .inl (.inr h)
  · exact .inr (.inl (.inl h))
  · exact .inr (.inl (.inr h))
  · exact .inr (.inr (.inl h))
  · exact .inr (.inr (.inr (.inl h)))

theorem tabLabels_all : ∀ x ∈ tabLabels, x ∈ labKinds.map Kind.detect ∨ x ∈ filKinds.map (·.1) ∨
    x = "numcoords".toList ∨ x = "re".toList := by decide +kernel

theorem parseLine_unm (P : PyFloat) (allow : Bool) (l : Str) : parseLine P allow l ≠ .error .unmodelled := by
  have htl : ∀ ss, takeList P ss ≠ .error .unmodelled := by
    intro ss
    induction ss with
    | nil => simp [takeList]
    | cons s ss ih =>
      rw [takeList]
      split
      · split
        · simp
        · next e he => intro h; injection h with h; subst h; exact ih he
      · simp
  have hmt : ∀ ws m, mergeTail m ws ≠ .error .unmodelled := by
    intro ws
    induction ws with
    | nil => intro m; unfold mergeTail; split <;> simp
    | cons w ws ih => intro m; unfold mergeTail; split; · simp
                      · exact ih _
  simp only [parseLine]
  split
  · simp
  · split
    · next e he =>
      intro h; injection h with h; subst h
      unfold listPart at he
      split at he
      · split at he
        · exact htl _ he
        · simp at he
      · simp at he
    · split
      · next e he =>
        intro h; injection h with h; subst h
        unfold valueAndSplits at he
        split at he
        · simp at he
        · split at he
          · simp at he
          · next e2 he2 =>
            injection he with he; subst he
            unfold mergeValue at he2
            split at he2
            · simp at he2
            · split at he2
              · exact hmt _ _ he2
              · simp at he2
      · split <;> simp

theorem step_unm (N : Num) (n : Nat) (s : RState N.F) (line : Str)
    (h : step N.toPyFloat n s line = .error .unmodelled) : Opens N line := by
  unfold step at h
  split at h
  · next hs => exact isSection_opens N line hs
  · split at h
    · next e he => injection h with h; subst h; exact absurd he (parseLine_unm _ _ _)
    · next d hd =>
      split at h
      · next ht =>
        refine .inr (.inr (.inr (.inr ⟨_, d, hd, ?_⟩)))
        unfold isTable at ht
        rw [Bool.or_eq_true] at ht
        rcases ht with ht | ht
        · rcases tabLabels_all _ (List.contains_iff_mem.1 ht) with h1 | h1 | h1 | h1
          · obtain ⟨k, hk, e⟩ := List.mem_map.1 h1; exact .inl ⟨k, hk, e⟩
          · obtain ⟨k, hk, e⟩ := List.mem_map.1 h1; exact .inr (.inl ⟨k, hk, e⟩)
          · exact .inr (.inr (.inl h1))
          · exact .inr (.inr (.inr (.inl h1)))
        · right; right; right; right
          split at ht
          · next t he =>
            have := List.contains_iff_mem.1 ht
            rw [← vals_eq] at this
            obtain ⟨k, hk, e⟩ := List.mem_map.1 this
            exact ⟨k, hk, t, he, e⟩
          · simp at ht
      · extract_lets at h
        split at h
        · simp at h
        · split at h
          · simp at h
          · split at h <;> simp at h

theorem fold_unm (N : Num) (n : Nat) (lines : List Str) (s : RState N.F)
    (he : lines.foldlM (step N.toPyFloat n) s = .error .unmodelled) : ∃ l ∈ lines, Opens N l := by
  induction lines generalizing s with
  | nil => simp [pure, Except.pure] at he
  | cons l ls ih =>
    simp only [List.foldlM_cons, bind, Except.bind] at he
    split at he
    · next e2 hs =>
      injection he with he; subst he
      exact ⟨l, by simp, step_unm N n s l hs⟩
    · next s1 hs =>
      obtain ⟨l', hl, ho⟩ := ih s1 he
      exact ⟨l', by simp [hl], ho⟩

/-- **C12 (reach of the small reader).** The small reader gives up only on files of the
two special formats and on files with a line where the whole reader does more than keep
one entry: C12, C13 and C54 speak of all the others. -/
theorem C12_reach (N : Num) (lines : List Str)
    (h : FastLine.readLines N.toPyFloat lines = .error .unmodelled) :
    isExtPtfm lines = .ok true ∨ isAD14 lines = true ∨ ∃ l ∈ lines, Opens N l := by
  unfold FastLine.readLines at h
  split at h
  · next e he =>
    injection h with h; subst h
    exfalso
    unfold isExtPtfm at he
    repeat' split at he
    all_goals simp at he
  · next he => exact .inl he
  · split at h
    · next ha => exact .inr (.inl ha)
    · right; right
      split at h
      · simp at h
      · next e he =>
        injection h with h; subst h
        exact fold_unm N _ lines _ he

example : FastLine.readLines toyN.toPyFloat ["1 A - x".toList, "1 NumAlf - n".toList] = .error .unmodelled :=
  rfl

end Verif.FastBridge
