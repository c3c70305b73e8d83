import Verif.Lemmas.ExtPtfm
import Verif.Lemmas.Tecplot
/-!
# Reading back what the writer of external platform files wrote
-/
namespace Verif.ExtPtfm
open Verif.Py Verif.FastLine Verif.FastTypes

/-! ## What is asked of an object -/

/-- the text of a number of the header is read as the same number: a word without colon -/
def HeadOk (N : Num F) (x : F) : Prop :=
  IsWord (N.repr x) ∧ ':' ∉ N.repr x ∧ N.parse (' ' :: lower (N.repr x)) = some x

/-- every number of the matrices is printed with a leading blank, as the text of `rd x` -/
def FieldsOk (N : Num F) (rd : F → F) (m : List (List F)) : Prop := ∀ r ∈ m, ∀ x ∈ r, Field N x (rd x)

/-- the object can be written, its header and its numbers have proper texts -/
structure Ok (N : Num F) (rd : F → F) (o : Obj F) : Prop where
  sane : (o.mass.length = o.nDOF ∧ ∀ r ∈ o.mass, r.length = o.nDOF) ∧
    (o.stiff.length = o.nDOF ∧ ∀ r ∈ o.stiff, r.length = o.nDOF) ∧
    (o.damp.length = o.nDOF ∧ ∀ r ∈ o.damp, r.length = o.nDOF)
  dt : HeadOk N o.dt
  T : HeadOk N o.T
  mass : FieldsOk N rd o.mass
  stiff : FieldsOk N rd o.stiff
  damp : FieldsOk N rd o.damp
  load : FieldsOk N rd o.load
  rows : ∀ r ∈ o.load, r.length = o.nDOF + 1

/-! ## Lemmas -/

theorem break_ws (c : Char) (h : isLineBreak c = true) : isWs c = true := by
  simp only [isLineBreak, Bool.or_eq_true, Bool.and_eq_true, decide_eq_true_eq, beq_iff_eq] at h
  simp only [isWs, Bool.or_eq_true, Bool.and_eq_true, decide_eq_true_eq, beq_iff_eq]
  omega

theorem word_noBreak (w : Str) (h : IsWord w) : ∀ c ∈ w, isLineBreak c = false := by
  intro c hc
  cases hb : isLineBreak c with
  | false => rfl
  | true => rw [← h.2 c hc, break_ws c hb]

theorem natText_noBreak (n : Nat) : ∀ c ∈ natText n, isLineBreak c = false := by
  intro c hc
  cases hb : isLineBreak c with
  | false => rfl
  | true =>
    have := break_ws c hb
    rw [(digit_facts c (toDigits_digit n c hc)).1] at this
    simp at this

theorem append_noBreak (a b : Str) (ha : ∀ c ∈ a, isLineBreak c = false) (hb : ∀ c ∈ b, isLineBreak c = false) :
    ∀ c ∈ a ++ b, isLineBreak c = false := by
  intro c hc
  rcases List.mem_append.1 hc with h | h
  · exact ha c h
  · exact hb c h

theorem row_noBreak (N : Num F) (rd : F → F) (r : List F) (h : ∀ x ∈ r, Field N x (rd x)) :
    ∀ c ∈ rowText N r, isLineBreak c = false := by
  intro c hc
  simp only [rowText, List.mem_flatMap] at hc
  obtain ⟨x, hx, hcx⟩ := hc
  obtain ⟨k, w, he, hw, _⟩ := h x hx
  rw [he] at hcx
  rcases List.mem_append.1 hcx with h1 | h1
  · rw [List.eq_of_mem_replicate h1]; decide
  · exact word_noBreak w hw c h1

theorem mat_noBreak (N : Num F) (rd : F → F) (m : List (List F)) (h : FieldsOk N rd m) :
    ∀ l ∈ matLines N m, ∀ c ∈ l, isLineBreak c = false := by
  intro l hl
  cases m with
  | nil =>
    simp only [matLines, List.mem_singleton] at hl
    subst hl
    simp
  | cons r m =>
    have : matLines N (r :: m) = (r :: m).map (rowText N) := rfl
    rw [this] at hl
    obtain ⟨q, hq, rfl⟩ := List.mem_map.1 hl
    exact row_noBreak N rd q (h q hq)

theorem row_start (N : Num F) (rd : F → F) (r : List F) (hne : r ≠ []) (h : ∀ x ∈ r, Field N x (rd x)) :
    ∃ s, rowText N r = ' ' :: s ∧ ∃ c ∈ s, isWs c = false := by
  cases r with
  | nil => exact absurd rfl hne
  | cons x r =>
    obtain ⟨k, w, he, hw, _⟩ := h x List.mem_cons_self
    refine ⟨List.replicate k ' ' ++ w ++ rowText N r, by simp [rowText, he, List.replicate_succ], ?_⟩
    cases w with
    | nil => exact absurd rfl hw.1
    | cons c w => exact ⟨c, by simp, hw.2 c (by simp)⟩

/-- the lines of the loading section -/
def loadPart (N : Num F) (o : Obj F) : List Str :=
  [[], "!Loading and Wave Elevation".toList,
    "!Dimension: 1 time column -  ".toList ++ natText o.nDOF ++ " force columns".toList] ++ matLines N o.load

/-- the state of the reader before the loading section -/
def beforeLoad (rd : F → F) (o : Obj F) : St F :=
  { nDOF := some o.nDOF, dt := some o.dt, T := some o.T, mass := some (o.mass.map (·.map rd)),
    stiff := some (o.stiff.map (·.map rd)), damp := some (o.damp.map (·.map rd)), load := none }

theorem square_of (n : Nat) (m : List (List F)) (h : m.length = n ∧ ∀ r ∈ m, r.length = n) :
    square n m = true := by
  simp only [square, Bool.and_eq_true, beq_iff_eq, List.all_eq_true]
  exact ⟨h.1, fun r hr => by rw [h.2 r hr, h.1]⟩

theorem other_dim (N : Num F) (st : St F) (n : Nat) :
    other N st (lower (dimLine n)) = .ok { st with nDOF := some n } := by
  have hl : lower (dimLine n) = "!dimension".toList ++ ':' :: ' ' :: natText n := by
    have : lower (dimLine n) = "!dimension".toList ++ ':' :: ' ' :: lower (natText n) := rfl
    rw [this, lower_natText]
  have hc : afterColon ("!dimension".toList ++ ':' :: ' ' :: natText n) = .ok (' ' :: natText n) :=
    afterColon_of _ _ (by decide) (by
      intro h
      rcases List.mem_cons.1 h with h | h
      · exact absurd h (by decide)
      · exact natText_colon n h)
  have : other N st ("!dimension".toList ++ ':' :: ' ' :: natText n) =
      match afterColon ("!dimension".toList ++ ':' :: ' ' :: natText n) with
        | .error e => .error e
        | .ok s =>
          match parseNat s with
          | .error e => .error e
          | .ok n => .ok { st with nDOF := some n } := rfl
  rw [hl, this, hc]
  simp only [parseNat_text]

theorem lower_colon (s : Str) (h : ':' ∉ s) : ':' ∉ lower s := by
  intro hm
  obtain ⟨c, hc, he⟩ := List.mem_map.1 hm
  have hu : c = ':' := by
    rw [Char.toLower] at he
    split at he
    · rename_i hup
      exfalso
      have h1 := congrArg (fun c => c.toNat) he
      have hA : ('A' : Char).toNat = 65 := rfl
      have hZ : ('Z' : Char).toNat = 90 := rfl
      have hcol : (':' : Char).toNat = 58 := rfl
      revert he
      have : ∀ d : Char, d.isUpper = true → d.toLower ≠ ':' := by
        intro d hd e
        have hn : 65 ≤ d.toNat ∧ d.toNat ≤ 90 := by
          simp only [Char.isUpper, decide_eq_true_eq] at hd
          exact ⟨hd.1, hd.2⟩
        have hv : d = Char.ofNat d.toNat := (Char.ofNat_toNat d).symm
        rw [hv] at e
        have : ∀ n : Fin 26, (Char.ofNat (65 + n.val)).toLower ≠ ':' := by decide
        have := this ⟨d.toNat - 65, by omega⟩
        simp only at this
        rw [show 65 + (d.toNat - 65) = d.toNat by omega] at this
        exact this e
      intro he
      refine this c (by simpa [Char.isUpper] using hup) ?_
      rw [Char.toLower]
      split
      · exact he
      · rename_i hn; exact absurd hup hn
    · exact he
  exact h (hu ▸ hc)

theorem other_dt (N : Num F) (st : St F) (x : F) (h : HeadOk N x) :
    other N st (lower ("!Time increment in simulation: ".toList ++ N.repr x)) = .ok { st with dt := some x } := by
  have hl : lower ("!Time increment in simulation: ".toList ++ N.repr x) =
      "!time increment in simulation".toList ++ ':' :: ' ' :: lower (N.repr x) := rfl
  have hc : afterColon ("!time increment in simulation".toList ++ ':' :: ' ' :: lower (N.repr x)) =
      .ok (' ' :: lower (N.repr x)) :=
    afterColon_of _ _ (by decide) (by
      intro q
      rcases List.mem_cons.1 q with q | q
      · exact absurd q (by decide)
      · exact lower_colon _ h.2.1 q)
  have : other N st ("!time increment in simulation".toList ++ ':' :: ' ' :: lower (N.repr x)) =
      match afterColon ("!time increment in simulation".toList ++ ':' :: ' ' :: lower (N.repr x)) with
        | .error e => .error e
        | .ok s =>
          match N.parse s with
          | none => .error .value
          | some x => .ok { st with dt := some x } := rfl
  rw [hl, this, hc]
  simp only [h.2.2]

theorem other_T (N : Num F) (st : St F) (x : F) (h : HeadOk N x) :
    other N st (lower ("!Total simulation time in file: ".toList ++ N.repr x)) = .ok { st with T := some x } := by
  have hl : lower ("!Total simulation time in file: ".toList ++ N.repr x) =
      "!total simulation time in file".toList ++ ':' :: ' ' :: lower (N.repr x) := rfl
  have hc : afterColon ("!total simulation time in file".toList ++ ':' :: ' ' :: lower (N.repr x)) =
      .ok (' ' :: lower (N.repr x)) :=
    afterColon_of _ _ (by decide) (by
      intro q
      rcases List.mem_cons.1 q with q | q
      · exact absurd q (by decide)
      · exact lower_colon _ h.2.1 q)
  have : other N st ("!total simulation time in file".toList ++ ':' :: ' ' :: lower (N.repr x)) =
      match afterColon ("!total simulation time in file".toList ++ ':' :: ' ' :: lower (N.repr x)) with
        | .error e => .error e
        | .ok s =>
          match N.parse s with
          | none => .error .value
          | some x => .ok { st with T := some x } := rfl
  rw [hl, this, hc]
  simp only [h.2.2]

/-- the lines after the two first -/
def body (N : Num F) (o : Obj F) : List Str :=
  dimLine o.nDOF :: ("!Time increment in simulation: ".toList ++ N.repr o.dt) ::
    ("!Total simulation time in file: ".toList ++ N.repr o.T) ::
    [] :: "!Mass Matrix".toList :: dimLine o.nDOF :: (matLines N o.mass ++
      ([] :: "!Stiffness Matrix".toList :: dimLine o.nDOF :: (matLines N o.stiff ++
        ([] :: "!Damping Matrix".toList :: dimLine o.nDOF :: (matLines N o.damp ++ loadPart N o)))))

theorem toLines_eq (N : Num F) (o : Obj F) :
    toLines N o = "!Comment".toList :: "!Comment Flex 5 Format".toList :: body N o := by
  have key : ∀ (a b c d e m1 s1 d1 l1 l2 : Str) (m s dd l : List Str),
      ([a, b, c, d, e] ++ ([[], m1, c] ++ m) ++ ([[], s1, c] ++ s) ++ ([[], d1, c] ++ dd) ++ ([[], l1, l2] ++ l)) =
      a :: b :: c :: d :: e :: [] :: m1 :: c :: (m ++ ([] :: s1 :: c :: (s ++ ([] :: d1 :: c :: (dd ++
        ([[], l1, l2] ++ l)))))) := by
    intros
    simp only [List.append_assoc, List.cons_append, List.nil_append]
  exact key ..

theorem run_dim (N : Num F) (st : St F) (n : Nat) (tl : List Str) :
    run N st (dimLine n :: tl) = run N { st with nDOF := some n } tl := by
  have hl : lower (dimLine n) = "!dimension: ".toList ++ lower (natText n) := rfl
  exact run_other N st _ _ _ (by rw [hl]; rfl) (by rw [hl]; rfl) (by rw [hl]; rfl) (by rw [hl]; rfl)
    (other_dim N st n)

theorem run_dt (N : Num F) (st : St F) (x : F) (h : HeadOk N x) (tl : List Str) :
    run N st (("!Time increment in simulation: ".toList ++ N.repr x) :: tl) = run N { st with dt := some x } tl := by
  have hl : lower ("!Time increment in simulation: ".toList ++ N.repr x) =
      "!time increment in simulation: ".toList ++ lower (N.repr x) := rfl
  exact run_other N st _ _ _ (by rw [hl]; rfl) (by rw [hl]; rfl) (by rw [hl]; rfl) (by rw [hl]; rfl)
    (other_dt N st x h)

theorem run_T (N : Num F) (st : St F) (x : F) (h : HeadOk N x) (tl : List Str) :
    run N st (("!Total simulation time in file: ".toList ++ N.repr x) :: tl) = run N { st with T := some x } tl := by
  have hl : lower ("!Total simulation time in file: ".toList ++ N.repr x) =
      "!total simulation time in file: ".toList ++ lower (N.repr x) := rfl
  exact run_other N st _ _ _ (by rw [hl]; rfl) (by rw [hl]; rfl) (by rw [hl]; rfl) (by rw [hl]; rfl)
    (other_T N st x h)

theorem run_body (N : Num F) (rd : F → F) (o : Obj F) (h : Ok N rd o) :
    run N {} (body N o) = run N (beforeLoad rd o) (loadPart N o) := by
  obtain ⟨⟨hm, hs, hd⟩, hdt, hT, fm, fs, fd, fl, hr⟩ := h
  refine (run_dim N {} o.nDOF _).trans ?_
  refine (run_dt N _ o.dt hdt _).trans ?_
  refine (run_T N _ o.T hT _).trans ?_
  refine (run_blank N _ _).trans ?_
  obtain ⟨r1, e1, g1⟩ := section_dim N rd
    { nDOF := some o.nDOF, dt := some o.dt, T := some o.T } o.nDOF rfl o.mass (square_of _ _ hm) fm
    ([] :: "!Stiffness Matrix".toList :: dimLine o.nDOF :: (matLines N o.stiff ++
        ([] :: "!Damping Matrix".toList :: dimLine o.nDOF :: (matLines N o.damp ++ loadPart N o))))
  refine (run_mass N _ _ _ _ e1).trans ((g1 _).trans ?_)
  refine (run_blank N _ _).trans ?_
  obtain ⟨r2, e2, g2⟩ := section_dim N rd
    { nDOF := some o.nDOF, dt := some o.dt, T := some o.T, mass := some (o.mass.map (·.map rd)) } o.nDOF rfl
    o.stiff (square_of _ _ hs) fs
    ([] :: "!Damping Matrix".toList :: dimLine o.nDOF :: (matLines N o.damp ++ loadPart N o))
  refine (run_stiff N _ _ _ _ e2).trans ((g2 _).trans ?_)
  refine (run_blank N _ _).trans ?_
  obtain ⟨r3, e3, g3⟩ := section_dim N rd
    { nDOF := some o.nDOF, dt := some o.dt, T := some o.T, mass := some (o.mass.map (·.map rd)),
      stiff := some (o.stiff.map (·.map rd)) } o.nDOF rfl
    o.damp (square_of _ _ hd) fd (loadPart N o)
  exact (run_damp N _ _ _ _ e3).trans (g3 _)

theorem toLines_noBreak (N : Num F) (rd : F → F) (o : Obj F) (h : Ok N rd o) :
    ∀ l ∈ toLines N o, ∀ c ∈ l, isLineBreak c = false := by
  have hdim : ∀ c ∈ "!Dimension: ".toList ++ natText o.nDOF, isLineBreak c = false :=
    append_noBreak _ _ (by decide) (natText_noBreak _)
  have hdt : ∀ c ∈ "!Time increment in simulation: ".toList ++ N.repr o.dt, isLineBreak c = false :=
    append_noBreak _ _ (by decide) (word_noBreak _ h.dt.1)
  have hT : ∀ c ∈ "!Total simulation time in file: ".toList ++ N.repr o.T, isLineBreak c = false :=
    append_noBreak _ _ (by decide) (word_noBreak _ h.T.1)
  have hld : ∀ c ∈ "!Dimension: 1 time column -  ".toList ++ natText o.nDOF ++ " force columns".toList,
      isLineBreak c = false :=
    append_noBreak _ _ (append_noBreak _ _ (by decide) (natText_noBreak _)) (by decide)
  intro l hl
  simp only [toLines, List.mem_append, List.mem_cons, List.not_mem_nil, or_false] at hl
  rcases hl with ((((rfl | rfl | rfl | rfl | rfl) | ((rfl | rfl | rfl) | hl)) | ((rfl | rfl | rfl) | hl)) |
    ((rfl | rfl | rfl) | hl)) | ((rfl | rfl | rfl) | hl)
  · decide
  · decide
  · exact hdim
  · exact hdt
  · exact hT
  · simp
  · decide
  · exact hdim
  · exact mat_noBreak N rd _ h.mass l hl
  · simp
  · decide
  · exact hdim
  · exact mat_noBreak N rd _ h.stiff l hl
  · simp
  · decide
  · exact hdim
  · exact mat_noBreak N rd _ h.damp l hl
  · simp
  · decide
  · exact hld
  · exact mat_noBreak N rd _ h.load l hl

theorem read_upto (N : Num F) (rd : F → F) (o : Obj F) (h : Ok N rd o) (hne : o.load ≠ []) :
    read N (toText N o) = run N (beforeLoad rd o) (loadPart N o) := by
  have hlast : (toLines N o).getLast? ≠ some [] := by
    obtain ⟨r, rs, hrs⟩ := List.exists_cons_of_ne_nil hne
    have hm : matLines N o.load = (o.load).map (rowText N) := by rw [hrs]; rfl
    rw [toLines, List.getLast?_append, List.getLast?_append, hm, List.getLast?_map]
    cases hq : o.load.getLast? with
    | none => rw [List.getLast?_eq_none_iff] at hq; exact absurd hq hne
    | some q =>
      have hmem : q ∈ o.load := List.mem_of_getLast? hq
      have hrow : q ≠ [] := by
        intro e
        have := h.rows q hmem
        rw [e] at this
        simp at this
      obtain ⟨s, hs, _⟩ := row_start N rd q hrow (h.load q hmem)
      simp [hs]
  have hsp : splitlines (toText N o) = toLines N o :=
    splitlines_join _ (toLines_noBreak N rd o h) hlast
  have hlen : 10 ≤ (toLines N o).length := by
    rw [toLines_eq, body, loadPart]
    simp only [List.length_cons, List.length_append, List.length_nil]
    omega
  have hext : isExtPtfm (toLines N o) = .ok true := by
    unfold isExtPtfm
    rw [if_neg (by omega), toLines_eq, body]
    rfl
  rw [read, hsp, hext]
  simp only
  rw [toLines_eq, List.drop_succ_cons, List.drop_succ_cons, List.drop_zero,
    loop_eq_run _ _ _ _ (by simp only [List.length_cons]; omega)]
  exact run_body N rd o h

/-- a character which is no blank makes a word -/
theorem wordsAux_ne_nil (acc t : Str) (h : acc ≠ [] ∨ ∃ d ∈ t, isWs d = false) : wordsAux acc t ≠ [] := by
  induction t generalizing acc with
  | nil =>
    rcases h with h | ⟨d, hd, _⟩
    · rw [wordsAux, if_neg h]; simp
    · simp at hd
  | cons y t ih =>
    rw [wordsAux]
    by_cases hy : isWs y = true
    · rw [if_pos hy]
      by_cases ha : acc = []
      · rw [if_pos ha]
        rcases h with h | ⟨d, hd, hw⟩
        · exact absurd ha h
        · rcases List.mem_cons.1 hd with rfl | hd
          · rw [hy] at hw; simp at hw
          · exact ih [] (.inr ⟨d, hd, hw⟩)
      · rw [if_neg ha]; simp
    · rw [if_neg hy]
      exact ih _ (.inl (by simp))

theorem strip_lower_ne_nil (s : Str) (c : Char) (hc : c ∈ s) (hw : isWs c = false) : strip (lower s) ≠ [] := by
  intro e
  have h := words_strip (lower s)
  rw [e, words_nil] at h
  exact wordsAux_ne_nil [] (lower s)
    (.inr ⟨c.toLower, List.mem_map.2 ⟨c, hc, rfl⟩, by rw [Tecplot.isWs_toLower, hw]⟩) h.symm

end Verif.ExtPtfm
