import Verif.Lemmas.Detect
/-!
# C01–C05: format detection and the format registry
-/
namespace Verif.Detect
open Verif.Py

/-! ## Specification vocabulary (independent of the loop) -/

/-- An extension test as documented: the extension is listed, or it starts with
a word matched by one of the listed patterns (those containing `*`). -/
def ExtOK (exts : List Str) (ext : Str) : Prop :=
  ext ∈ exts ∨ ∃ ef ∈ exts, '*' ∈ ef ∧ ∃ p q, ext = p ++ q ∧ PatLang ef p

/-- `ext` is the extension used for `filename`: the lower-case extension. -/
def extOf (filename : Str) : Str := splitextExt (lower filename)

/-- `f` (with object `F`) is the first acceptable format. -/
def FirstAcceptable (fs : List (Format ρ ε)) (name : Str) (f : Format ρ ε) (F : ρ) : Prop :=
  ∃ pre post, fs = pre ++ f :: post ∧ ExtOK f.extensions (extOf name) ∧
    f.construct name = .accepts F ∧
    ∀ g ∈ pre, ExtOK g.extensions (extOf name) → g.construct name = .wrongFormat

/-- `e` is the first exception other than WrongFormatError met before any
acceptable format. -/
def FirstRaise (fs : List (Format ρ ε)) (name : Str) (e : ε) : Prop :=
  ∃ pre f post, fs = pre ++ f :: post ∧ ExtOK f.extensions (extOf name) ∧
    f.construct name = .raises e ∧
    ∀ g ∈ pre, ExtOK g.extensions (extOf name) → g.construct name = .wrongFormat

/-- **C01** — detection returns exactly the first acceptable format. -/
theorem C01_detect_first (fs : List (Format ρ ε)) (name : Str) (f : Format ρ ε) (F : ρ) :
    (detectFormat fs name).1 = .ok (f, F) ↔ FirstAcceptable fs name f F := by
  constructor
  · intro h
    obtain ⟨pre, post, h1, h2, h3, h4, _⟩ := detectLoop_ok _ _ _ _ _ h
    exact ⟨pre, post, h1, (extMatch_iff ..).mp h2, h3,
      fun g hg hx => h4 g hg ((extMatch_iff ..).mpr hx)⟩
  · rintro ⟨pre, post, rfl, h2, h3, h4⟩
    change (detectLoop (extOf name) name _).1 = _
    rw [detectLoop_skip _ _ _ _ (fun g hg hx => h4 g hg ((extMatch_iff ..).mp hx)),
      detectLoop_cons_accept _ _ _ _ _ ((extMatch_iff ..).mpr h2) h3]

/-- **C01** — `FormatNotDetectedError` exactly when every extension-matching
reader rejects the file with `WrongFormatError`. -/
theorem C01_not_detected (fs : List (Format ρ ε)) (name : Str) :
    (detectFormat fs name).1 = .error .notDetected ↔
      ∀ g ∈ fs, ExtOK g.extensions (extOf name) → g.construct name = .wrongFormat := by
  constructor
  · intro h
    rcases split_first (extOf name) name fs with h' | ⟨pre, f, post, rfl, h2, h3, h4⟩
    · exact fun g hg hx => h' g hg ((extMatch_iff ..).mpr hx)
    · exfalso
      change (detectLoop (extOf name) name _).1 = _ at h
      rw [detectLoop_skip _ _ _ _ h4] at h
      cases hc : f.construct name with
      | accepts F => rw [detectLoop_cons_accept _ _ _ _ _ h2 hc] at h; simp at h
      | wrongFormat => exact h3 hc
      | raises e => rw [detectLoop_cons_raise _ _ _ _ _ h2 hc] at h; simp at h
  · intro h
    have := detectLoop_skip (extOf name) name fs []
      (fun g hg hx => h g hg ((extMatch_iff ..).mp hx))
    simp only [List.append_nil] at this
    unfold detectFormat
    rw [show splitextExt (lower name) = extOf name from rfl, this]
    rfl

/-- **C01** — only extension-matching readers are ever run on the file, each at
most as often as it is listed, in list order. -/
theorem C01_only_matching_run (fs : List (Format ρ ε)) (name : Str) :
    (detectFormat fs name).2.Sublist fs ∧
    ∀ g ∈ (detectFormat fs name).2, ExtOK g.extensions (extOf name) := by
  have : ∀ fs : List (Format ρ ε), (detectLoop (extOf name) name fs).2.Sublist fs ∧
      ∀ g ∈ (detectLoop (extOf name) name fs).2, ExtOK g.extensions (extOf name) := by
    intro fs
    induction fs with
    | nil => simp [detectLoop]
    | cons g fs ih =>
      rw [detectLoop]
      by_cases hm : extMatch g.extensions (extOf name) = true
      · have hx := (extMatch_iff ..).mp hm
        simp only [hm, if_true, isRightFormat]
        cases g.construct name with
        | accepts F => exact ⟨by simp, fun g' hg' => by rw [List.mem_singleton] at hg'; subst hg'; exact hx⟩
        | wrongFormat =>
          refine ⟨ih.1.cons_cons g, ?_⟩
          intro g' hg'
          rcases List.mem_cons.mp hg' with rfl | hg'
          · exact hx
          · exact ih.2 g' hg'
        | raises e => exact ⟨by simp, fun g' hg' => by rw [List.mem_singleton] at hg'; subst hg'; exact hx⟩
      · simp only [hm]
        exact ⟨ih.1.cons g, ih.2⟩
  exact this fs

/-- **C01** — `weio.read` without explicit format returns that first acceptable
object; with an explicit format it runs that format only. -/
theorem C01_read (fs : List (Format ρ ε)) (name : Str) (F : ρ) :
    read fs name none = .ok F ↔ ∃ f, FirstAcceptable fs name f F := by
  unfold read
  constructor
  · intro h
    cases hd : (detectFormat fs name).1 with
    | ok p =>
      obtain ⟨f, F'⟩ := p
      simp only [hd, Except.ok.injEq] at h
      subst h
      exact ⟨f, (C01_detect_first ..).mp hd⟩
    | error e => cases e <;> simp [hd] at h
  · rintro ⟨f, hf⟩
    simp [(C01_detect_first ..).mpr hf]

/-- **C02** — any exception other than `WrongFormatError` raised before an
acceptable format is met leaves detection unchanged. -/
theorem C02_propagates (fs : List (Format ρ ε)) (name : Str) (e : ε) :
    (detectFormat fs name).1 = .error (.propagated e) ↔ FirstRaise fs name e := by
  constructor
  · intro h
    rcases split_first (extOf name) name fs with h' | ⟨pre, f, post, rfl, h2, h3, h4⟩
    · have := (C01_not_detected fs name).mpr
        (fun g hg hx => h' g hg ((extMatch_iff ..).mpr hx))
      rw [this] at h; simp at h
    · change (detectLoop (extOf name) name _).1 = _ at h
      rw [detectLoop_skip _ _ _ _ h4] at h
      cases hc : f.construct name with
      | accepts F => rw [detectLoop_cons_accept _ _ _ _ _ h2 hc] at h; simp at h
      | wrongFormat => exact absurd hc h3
      | raises e' =>
        rw [detectLoop_cons_raise _ _ _ _ _ h2 hc] at h
        simp only [Except.error.injEq, DetectErr.propagated.injEq] at h
        subst h
        exact ⟨pre, f, post, rfl, (extMatch_iff ..).mp h2, hc,
          fun g hg hx => h4 g hg ((extMatch_iff ..).mpr hx)⟩
  · rintro ⟨pre, f, post, rfl, h2, h3, h4⟩
    change (detectLoop (extOf name) name _).1 = _
    rw [detectLoop_skip _ _ _ _ (fun g hg hx => h4 g hg ((extMatch_iff ..).mp hx)),
      detectLoop_cons_raise _ _ _ _ _ ((extMatch_iff ..).mpr h2) h3]

/-- **C02** — the exception is passed on by `weio.read`, and a later format is
never used instead. -/
theorem C02_read_propagates (fs : List (Format ρ ε)) (name : Str) (e : ε) :
    read fs name none = .error (.raised e) ↔ FirstRaise fs name e := by
  rw [← C02_propagates]
  unfold read
  cases hd : (detectFormat fs name).1 with
  | ok p => simp
  | error e' => cases e' <;> simp

section Example
/-- a small registry: csv, then a reader that breaks, then a late reader. -/
def exFormats : List (Format String String) := [
  ⟨"csv", [".csv".toList], fun _ => .accepts "csv"⟩,
  ⟨"pick", [".txt".toList], fun n => if startsWith n "a".toList then .wrongFormat else .raises "Broken"⟩,
  ⟨"pat", [".t*".toList], fun _ => .accepts "late"⟩]

-- non-trivial instances of the hypotheses
example : FirstAcceptable exFormats "ab.TXT".toList exFormats[2] "late" := by
  rw [← C01_detect_first]; rfl
example : FirstRaise exFormats "b.txt".toList "Broken" := by
  rw [← C02_propagates]; rfl
example : ∀ g ∈ exFormats, ExtOK g.extensions (extOf "x.dat".toList) →
    g.construct "x.dat".toList = .wrongFormat := by
  rw [← C01_not_detected]; rfl
end Example

/-! ## C03, C04: registry -/

/-- **C03** — the sorted list contains exactly the registered formats, in
non-decreasing priority, and formats of equal priority keep their order. -/
theorem C03_sorted_stable (regs : List (Int × φ)) :
    ∃ out : List (Int × φ), sortFormats regs = out.map Prod.snd ∧ out.Perm regs ∧
      out.Pairwise (fun a b => a.1 ≤ b.1) ∧
      ∀ p : Int, out.filter (fun a => a.1 == p) = regs.filter (fun a => a.1 == p) := by
  have htrans : ∀ a b c : Int × φ, prioLe a b = true → prioLe b c = true → prioLe a c = true := by
    intro a b c; simp only [prioLe, decide_eq_true_eq]; omega
  have htot : ∀ a b : Int × φ, (prioLe a b || prioLe b a) = true := by
    intro a b; simp only [prioLe, Bool.or_eq_true, decide_eq_true_eq]; omega
  refine ⟨regs.mergeSort prioLe, rfl, List.mergeSort_perm .., ?_, ?_⟩
  · refine (List.pairwise_mergeSort htrans htot regs).imp ?_
    intro a b h; simpa [prioLe] using h
  · intro p
    have hsub : (regs.filter (fun a => a.1 == p)).Sublist (regs.mergeSort prioLe) := by
      refine List.sublist_mergeSort htrans htot ?_ List.filter_sublist
      rw [List.pairwise_filter]
      refine List.pairwise_of_forall ?_
      intro a b ha hb
      have ha : a.1 = p := by simpa using ha
      have hb : b.1 = p := by simpa using hb
      simp [prioLe, ha, hb]
    have hsub2 := hsub.filter (fun a => a.1 == p)
    rw [List.filter_filter] at hsub2
    simp only [Bool.and_self] at hsub2
    refine (hsub2.eq_of_length ?_).symm
    exact (List.Perm.filter _ (List.mergeSort_perm regs prioLe)).length_eq.symm

/-- the formats registered by a user directory whose classes are all good. -/
def goodRegs : List (UserModule φ) → List (Int × φ)
  | [] => []
  | .good f p :: ms => (match p with | some q => q | none => 2, f) :: goodRegs ms
  | _ :: ms => goodRegs ms

theorem userClasses_register (ign : Bool) (ms : List (UserModule φ)) (cs n1 us n2)
    (h1 : userClasses ign ms = some (cs, n1)) (h2 : registerUser ign cs = some (us, n2)) :
    us = goodRegs ms := by
  induction ms generalizing cs n1 us n2 with
  | nil =>
    simp [userClasses] at h1; obtain ⟨rfl, rfl⟩ := h1
    simp [registerUser] at h2; simp [goodRegs, h2]
  | cons m ms ih =>
    cases m with
    | importError | noClass =>
      simp only [userClasses] at h1
      split at h1
      · simp only [Option.map_eq_some_iff] at h1
        obtain ⟨⟨cs', n'⟩, h1, heq⟩ := h1
        simp only [Prod.mk.injEq] at heq
        obtain ⟨rfl, rfl⟩ := heq
        exact ih _ _ _ _ h1 h2
      · simp at h1
    | badClass =>
      simp only [userClasses, Option.map_eq_some_iff] at h1
      obtain ⟨⟨cs', n'⟩, h1, heq⟩ := h1
      simp only [Prod.mk.injEq] at heq
      obtain ⟨rfl, rfl⟩ := heq
      simp only [registerUser] at h2
      split at h2
      · simp only [Option.map_eq_some_iff] at h2
        obtain ⟨⟨us', m'⟩, h2, heq⟩ := h2
        simp only [Prod.mk.injEq] at heq
        obtain ⟨rfl, rfl⟩ := heq
        exact ih _ _ _ _ h1 h2
      · simp at h2
    | good f p =>
      simp only [userClasses, Option.map_eq_some_iff] at h1
      obtain ⟨⟨cs', n'⟩, h1, heq⟩ := h1
      simp only [Prod.mk.injEq] at heq
      obtain ⟨rfl, rfl⟩ := heq
      simp only [registerUser, Option.map_eq_some_iff] at h2
      obtain ⟨⟨us', m'⟩, h2, heq⟩ := h2
      simp only [Prod.mk.injEq] at heq
      obtain ⟨rfl, rfl⟩ := heq
      rw [ih _ _ _ _ h1 h2]
      cases p <;> simp [goodRegs, userPriority]

/-- what a result of `fileFormats` says about the list of formats. -/
def FFResult.list? : FFResult φ → Option (List φ)
  | .formats fs => some fs
  | .pair fs _ => some fs
  | .importError => none

/-- **C03** — in any history of calls from a fresh interpreter, every call that
does not raise returns one and the same list, namely the library formats
followed by the good user formats of the directory of the first such call,
stably sorted by priority. -/
theorem C03_history (lib : List (Int × φ)) (dir : υ → List (UserModule φ))
    (calls : List (υ × Bool)) :
    (∀ r ∈ (fileFormatsRun lib dir none calls).2, r = .importError) ∨
    ∃ c ∈ calls, ∀ r ∈ (fileFormatsRun lib dir none calls).2, ∀ fs, r.list? = some fs →
        fs = sortFormats (lib ++ goodRegs (dir c.1)) := by
  have key : ∀ (calls : List (υ × Bool)) (fs : List φ),
      ∀ r ∈ (fileFormatsRun lib dir (some fs) calls).2, r = .formats fs := by
    intro calls
    induction calls with
    | nil => intro fs r hr; simp [fileFormatsRun] at hr
    | cons c cs ih =>
      intro fs r hr
      obtain ⟨u, b⟩ := c
      simp only [fileFormatsRun, fileFormats, List.mem_cons] at hr
      rcases hr with rfl | hr
      · rfl
      · exact ih fs r hr
  induction calls with
  | nil => left; intro r hr; simp [fileFormatsRun] at hr
  | cons c cs ih =>
    obtain ⟨u, b⟩ := c
    cases h1 : userClasses b (dir u) with
    | none =>
      have hrun : (fileFormatsRun lib dir none ((u, b) :: cs)).2
          = .importError :: (fileFormatsRun lib dir none cs).2 := by
        simp [fileFormatsRun, fileFormats, h1]
      rw [hrun]
      rcases ih with ih | ⟨c, hc, ih⟩
      · left; intro r hr
        rcases List.mem_cons.mp hr with rfl | hr
        · rfl
        · exact ih r hr
      · right
        refine ⟨c, by simp [hc], ?_⟩
        intro r hr fs hfs
        rcases List.mem_cons.mp hr with rfl | hr
        · simp [FFResult.list?] at hfs
        · exact ih r hr fs hfs
    | some p =>
      obtain ⟨cl, n1⟩ := p
      cases h2 : registerUser b cl with
      | none =>
        have hrun : (fileFormatsRun lib dir none ((u, b) :: cs)).2
            = .importError :: (fileFormatsRun lib dir none cs).2 := by
          simp [fileFormatsRun, fileFormats, h1, h2]
        rw [hrun]
        rcases ih with ih | ⟨c, hc, ih⟩
        · left; intro r hr
          rcases List.mem_cons.mp hr with rfl | hr
          · rfl
          · exact ih r hr
        · right
          refine ⟨c, by simp [hc], ?_⟩
          intro r hr fs hfs
          rcases List.mem_cons.mp hr with rfl | hr
          · simp [FFResult.list?] at hfs
          · exact ih r hr fs hfs
      | some q =>
        obtain ⟨us, n2⟩ := q
        have hus := userClasses_register _ _ _ _ _ _ h1 h2
        right
        refine ⟨(u, b), by simp, ?_⟩
        intro r hr fs hfs
        simp only [fileFormatsRun, fileFormats, h1, h2, List.mem_cons] at hr
        rcases hr with rfl | hr
        · rw [← hus]
          split at hfs <;> simpa [FFResult.list?] using hfs.symm
        · have := key _ _ r hr
          subst this
          simpa [FFResult.list?, hus] using hfs.symm

-- a history with an import error, a success and cached calls
example : (fileFormatsRun [(0, "csv"), (20, "fast")]
    (fun b : Bool => if b then [.importError] else [.good "mine" (some 10), .good "yours" none]) none
    [(true, false), (false, false), (true, false)]).2
    = [.importError, .formats ["csv", "yours", "mine", "fast"],
       .formats ["csv", "yours", "mine", "fast"]] := by
  simp [fileFormatsRun, fileFormats, userClasses, registerUser, sortFormats, userPriority,
    List.mergeSort, List.MergeSort.Internal.splitInTwo, prioLe]

/-- **C04** (full statement) — `fileFormats(ignoreErrors=True)` always returns
the pair (unless it raises). -/
def AlwaysPair (lib : List (Int × φ)) (dir : υ → List (UserModule φ)) : Prop :=
  ∀ (before : List (υ × Bool)) (u : υ),
    match (fileFormats lib dir (fileFormatsRun lib dir none before).1 u true).2 with
    | .formats _ => False
    | _ => True

/-- **C04** is violated: after any successful call the bare list is returned. -/
theorem C04_fails : ¬ AlwaysPair (υ := Unit) [((0 : Int), "csv")] (fun _ => []) := by
  intro h
  have := h [((), false)] ()
  simp [fileFormatsRun, fileFormats, userClasses, registerUser, sortFormats] at this

/-- the modules of a user directory that give no format -/
def isBad : UserModule φ → Bool
  | .good _ _ => false
  | _ => true

theorem classes_count (ms : List (UserModule φ)) :
    ∃ cs n1 us n2, userClasses true ms = some (cs, n1) ∧ registerUser true cs = some (us, n2) ∧ n1 + n2 = ms.countP isBad := by
  induction ms with
  | nil => exact ⟨[], 0, [], 0, rfl, rfl, rfl⟩
  | cons m ms ih =>
    obtain ⟨cs, n1, us, n2, h1, h2, h3⟩ := ih
    cases m with
    | importError => exact ⟨cs, n1 + 1, us, n2, by simp [userClasses, h1], h2, by rw [List.countP_cons_of_pos rfl]; omega⟩
    | noClass => exact ⟨cs, n1 + 1, us, n2, by simp [userClasses, h1], h2, by rw [List.countP_cons_of_pos rfl]; omega⟩
    | badClass =>
      exact ⟨none :: cs, n1, us, n2 + 1, by simp [userClasses, h1], by simp [registerUser, h2],
        by rw [List.countP_cons_of_pos rfl]; omega⟩
    | good f p =>
      exact ⟨some (f, p) :: cs, n1, (userPriority p, f) :: us, n2, by simp [userClasses, h1], by simp [registerUser, h2],
        by rw [List.countP_cons_of_neg (by simp [isBad])]; omega⟩

/-- **C04** (partial) — it does return the pair, and never raises, as long as no
earlier call succeeded (all earlier calls raised): the formats are those of the library and of the
good user modules, and there is one error message per other module. Missing: calls after a
successful one, where the statement is false (`C04_fails`). -/
theorem C04_pair_partial (lib : List (Int × φ)) (dir : υ → List (UserModule φ))
    (before : List (υ × Bool)) (u : υ)
    (h : ∀ r ∈ (fileFormatsRun lib dir none before).2, r = .importError) :
    (fileFormats lib dir (fileFormatsRun lib dir none before).1 u true).2 =
      .pair (sortFormats (lib ++ goodRegs (dir u))) ((dir u).countP isBad) := by
  have hnone : (fileFormatsRun lib dir none before).1 = none := by
    induction before with
    | nil => rfl
    | cons c cs ih =>
      obtain ⟨v, b⟩ := c
      simp only [fileFormatsRun] at h ⊢
      have h0 := h _ (List.mem_cons_self ..)
      have hc : (fileFormats lib dir none v b).1 = none := by
        simp only [fileFormats] at h0 ⊢
        split
        · rfl
        · rename_i cl n1 h1
          simp only [h1] at h0
          split
          · rfl
          · rename_i us n2 h2
            simp only [h2] at h0
            split at h0 <;> simp at h0
      rw [hc] at h ⊢
      exact ih (fun r hr => h r (List.mem_cons_of_mem _ hr))
  rw [hnone]
  obtain ⟨cs, n1, us, n2, h1, h2, h3⟩ := classes_count (dir u)
  have := userClasses_register true _ _ _ _ _ h1 h2
  subst this
  simp [fileFormats, h1, h2, h3]

example : ∀ r ∈ (fileFormatsRun [((0 : Int), "csv")] (fun _ : Unit => [.noClass]) none
    [((), false), ((), false)]).2, r = .importError := by
  simp [fileFormatsRun, fileFormats, userClasses]

/-! ## C05: reachability of declared extensions -/

/-- `stem` can precede an extension: its last path component contains a
character other than a dot. -/
def GoodStem (stem : Str) : Prop :=
  ∃ dir base, '/' ∉ base ∧ (stem = base ∨ stem = dir ++ '/' :: base) ∧ ∃ c ∈ base, c ≠ '.'

/-- A declared extension is reachable for a format with extensions `exts` if
every file name made of a stem followed by that extension passes the extension
test of the detection.  For patterns the `*` may stand for any dot-free,
slash-free text. -/
def Reachable (exts : List Str) (e : Str) : Prop :=
  ∀ stem, GoodStem stem → ∀ fill : Str, '.' ∉ fill → '/' ∉ fill →
    extMatch exts (extOf (stem ++ replaceChar '*' fill e)) = true

/-- **C05** (full statement). -/
def AllReachable (table : List (Int × String × List String)) : Prop :=
  ∀ row ∈ table, ∀ e ∈ row.2.2, Reachable (row.2.2.map String.toList) e.toList

/-- **C05** is violated: `.00X` of FLEXBladeFile never matches. -/
theorem C05_fails : ¬ AllReachable libTable := by
  intro h
  have := h (40, "FLEXBladeFile", [".bld", ".bla", ".00X"]) (by simp [libTable]) ".00X" (by simp)
    "b".toList ⟨[], ['b'], by decide, Or.inl rfl, 'b', by simp, by decide⟩ [] (by simp) (by simp)
  revert this
  decide

/-- an extension that detection can handle: a dot followed by dot-free,
slash-free, star-free lower-case text. -/
def GoodExt (e : Str) : Bool :=
  match e with
  | '.' :: t => !t.contains '.' && !t.contains '/' && !t.contains '*' && (lower t == t)
  | _ => false

theorem lower_append (a b : Str) : lower (a ++ b) = lower a ++ lower b := by simp [lower]

theorem toLower_eq_iff {c d : Char} (hd : d = '.' ∨ d = '/') : c.toLower = d ↔ c = d := by
  unfold Char.toLower
  split
  · rename_i h
    constructor
    · intro hc
      exfalso
      have h2 := congrArg Char.val hc
      simp only at h2
      have h3 := congrArg UInt32.toNat h2
      have ha := h.1
      have hb := h.2
      simp only [ge_iff_le, UInt32.le_iff_toNat_le] at ha hb
      simp only [UInt32.toNat_add] at h3
      have e1 : (65 : UInt32).toNat = 65 := rfl
      have e2 : (90 : UInt32).toNat = 90 := rfl
      rcases hd with rfl | rfl
      · simp at h3 ha hb; omega
      · simp at h3 ha hb; omega
    · rintro rfl
      exfalso
      have ha := h.1
      rcases hd with rfl | rfl <;> revert ha <;> decide
  · rfl

theorem mem_lower {d : Char} (hd : d = '.' ∨ d = '/') (s : Str) : d ∈ lower s ↔ d ∈ s := by
  simp [lower, toLower_eq_iff hd]

theorem extOf_stem (stem t : Str) (hs : GoodStem stem) (ht : '.' ∉ t) (ht2 : '/' ∉ t) :
    extOf (stem ++ '.' :: t) = '.' :: lower t := by
  obtain ⟨dir, base, hb, hor, c, hc, hne⟩ := hs
  have hlt : '.' ∉ lower t := by rwa [mem_lower (Or.inl rfl)]
  have hlt2 : '/' ∉ lower t := by rwa [mem_lower (Or.inr rfl)]
  have hlb : '/' ∉ lower base := by rwa [mem_lower (Or.inr rfl)]
  have hnb : ∃ c ∈ lower base, c ≠ '.' :=
    ⟨c.toLower, by simp only [lower, List.mem_map]; exact ⟨c, hc, rfl⟩,
      by rw [Ne, toLower_eq_iff (Or.inl rfl)]; exact hne⟩
  have hl : ∀ s : Str, lower ('.' :: s) = '.' :: lower s := by intro s; simp [lower]
  have hl2 : ∀ s : Str, lower ('/' :: s) = '/' :: lower s := by intro s; simp [lower]
  have hns : '/' ∉ lower base ++ '.' :: lower t := by simp [hlb, hlt2]
  unfold extOf
  rcases hor with rfl | rfl
  · refine splitextExt_base _ _ (lower stem) (lower t) ?_ rfl hlt hnb
    rw [lower_append, hl, afterSlash_noslash _ hns]
  · refine splitextExt_base _ _ (lower base) (lower t) ?_ rfl hlt hnb
    rw [List.append_assoc, lower_append, List.cons_append, hl2, lower_append, hl,
      afterSlash_append _ _ hns]

/-- **C05** (partial) — every declared extension satisfying `GoodExt` is
reachable, for every format list entry, every stem, and every letter case of
the extension in the file name.  Missing: `.00X` and `doc` (see `C05_fails`
and `C05_dead`). -/
theorem C05_reachable_partial (exts : List Str) (e : Str) (he : e ∈ exts) (hg : GoodExt e = true)
    (stem e' : Str) (hs : GoodStem stem) (hcase : lower e' = e) :
    extMatch exts (extOf (stem ++ e')) = true := by
  rw [extMatch_iff]
  left
  unfold GoodExt at hg
  split at hg
  · rename_i t
    simp only [Bool.and_eq_true, Bool.not_eq_true'] at hg
    obtain ⟨⟨⟨h1, h2⟩, _⟩, _⟩ := hg
    match e', hcase with
    | c :: t', hcase =>
      have hc : c.toLower = '.' ∧ lower t' = t := by simpa [lower] using hcase
      have hc1 : c = '.' := (toLower_eq_iff (Or.inl rfl)).mp hc.1
      subst hc1
      have hd : '.' ∉ t' := by
        rw [← mem_lower (Or.inl rfl), hc.2]; simpa using h1
      have hsl : '/' ∉ t' := by
        rw [← mem_lower (Or.inr rfl), hc.2]; simpa using h2
      rw [extOf_stem _ _ hs hd hsl, hc.2]
      exact he
  · cases hg

/-- **C05** (partial) — Bladed's patterns are reachable with any text for `*`. -/
theorem C05_bladed_partial (stem fill : Str) (hs : GoodStem stem) (h1 : '.' ∉ fill)
    (h2 : '/' ∉ fill) (c : Char) (hc : c = '%' ∨ c = '$') :
    extMatch [".%*".toList, ".$*".toList] (extOf (stem ++ '.' :: c :: fill)) = true := by
  have hd : '.' ∉ c :: fill := by rcases hc with rfl | rfl <;> simp [h1]
  have hsl : '/' ∉ c :: fill := by rcases hc with rfl | rfl <;> simp [h2]
  rw [extOf_stem _ _ hs hd hsl, extMatch_iff]
  right
  rcases hc with rfl | rfl
  · refine ⟨".%*".toList, by simp, by decide, ".%".toList, lower fill, ?_, ?_⟩
    · simp [lower]
    · exact .lit (by decide) (.lit (by decide) (PatLang.star (ef := []) (s := []) 0 .nil))
  · refine ⟨".$*".toList, by simp, by decide, ".$".toList, lower fill, ?_, ?_⟩
    · simp [lower]
    · exact .lit (by decide) (.lit (by decide) (PatLang.star (ef := []) (s := []) 0 .nil))

/-- The exact extent of the violation in the library table: apart from the two
Bladed patterns, the declared extensions which are not `GoodExt` are the two
occurrences of `.00X`, and `doc`. -/
theorem C05_exceptions :
    (libTable.flatMap (fun r => (r.2.2.filter (fun e => !GoodExt e.toList)).map (fun e => (r.2.1, e))))
      = [("BladedFile", ".%*"), ("BladedFile", ".$*"), ("FLEXBladeFile", ".00X"),
         ("FLEXProfileFile", ".00X"), ("FLEXDocFile", "doc")] := by
  decide +kernel

/-- the extensions of the library with the formats that claim them, in the order of the
registration (`__init__.py:63-95` and the `defaultExtensions` of the classes) -/
def extensionTable : List (String × List String) :=
  [(".csv", ["CSVFile"]),
   (".txt", ["CSVFile", "FASTInputFile", "TurbSimTSFile", "HAWC2PCFile", "HAWC2AEFile", "HAWCStab2PwrFile", "HAWCStab2IndFile", "ROSCOPerformanceFile"]),
   (".xls", ["ExcelFile"]),
   (".xlsx", ["ExcelFile"]),
   (".dat", ["TecplotFile", "FASTInputFile", "HAWC2DatFile", "HAWC2StFile", "HAWC2PCFile", "HAWC2AEFile"]),
   (".fst", ["FASTInputFile"]),
   (".fstf", ["FASTInputFile"]),
   (".out", ["FASTOutputFile", "FLEXDocFile", "BModesOutFile"]),
   (".outb", ["FASTOutputFile"]),
   (".elm", ["FASTOutputFile"]),
   (".elev", ["FASTOutputFile"]),
   (".wnd", ["FASTWndFile"]),
   (".lin", ["FASTLinearizationFile"]),
   (".sum", ["FASTSummaryFile"]),
   (".yaml", ["FASTSummaryFile"]),
   (".bts", ["TurbSimFile"]),
   (".sel", ["HAWC2DatFile"]),
   (".htc", ["HAWC2HTCFile"]),
   (".st", ["HAWC2StFile"]),
   (".pc", ["HAWC2PCFile"]),
   (".ae", ["HAWC2AEFile"]),
   (".pwr", ["HAWCStab2PwrFile"]),
   (".ind", ["HAWCStab2IndFile"]),
   (".cmb", ["HAWCStab2CmbFile"]),
   (".u", ["MannBoxFile"]),
   (".v", ["MannBoxFile"]),
   (".w", ["MannBoxFile"]),
   (".bin", ["MannBoxFile"]),
   (".bld", ["FLEXBladeFile"]),
   (".bla", ["FLEXBladeFile"]),
   (".pro", ["FLEXProfileFile"]),
   (".res", ["FLEXOutFile"]),
   (".int", ["FLEXOutFile"]),
   (".wko", ["FLEXWaveKinFile"]),
   (".nc", ["NetCDFFile"]),
   (".vtk", ["VTKFile"]),
   (".vtp", ["VTKFile"]),
   (".tdms", ["TDMSFile"]),
   (".parquet", ["ParquetFile"]),
   (".in", ["CactusFile"]),
   (".mat", ["RAAWMatFile"])]

/-- **C05**: for every extension, the formats tried are those of the table, in that order; a file
without extension is tried by none -/
theorem C05_candidates :
    let tried (e : String) := (sortFormats libTable).filter fun r => extMatch (r.2.map String.toList) e.toList
    (∀ ef ∈ extensionTable, (tried ef.1).map Prod.fst = ef.2) ∧ tried "" = [] := by
  have : libTable.mergeSort prioLe = libTable := List.mergeSort_of_pairwise (by decide +kernel)
  rw [sortFormats, this]
  decide +kernel

/-- and these really are unreachable, for every stem. -/
theorem C05_dead (stem : Str) (hs : GoodStem stem) :
    extMatch [".bld".toList, ".bla".toList, ".00X".toList] (extOf (stem ++ ".00X".toList)) = false ∧
    extMatch [".pro".toList, ".00X".toList] (extOf (stem ++ ".00X".toList)) = false ∧
    extMatch [".out".toList, "doc".toList] (extOf (stem ++ ".doc".toList)) = false := by
  have h1 : extOf (stem ++ ".00X".toList) = ".00x".toList :=
    extOf_stem stem "00X".toList hs (by decide) (by decide)
  have h2 : extOf (stem ++ ".doc".toList) = ".doc".toList :=
    extOf_stem stem "doc".toList hs (by decide) (by decide)
  rw [h1, h2]
  decide

example : GoodStem "/data/x/run.1".toList :=
  ⟨"/data/x".toList, "run.1".toList, by decide, Or.inr rfl, 'r', by decide, by decide⟩
example : GoodExt ".outb".toList = true ∧ lower ".OutB".toList = ".outb".toList := by decide

end Verif.Detect
