import Verif.Spec.BladedRead
import Verif.Props.Bladed
import Verif.Lemmas.Hawc2Sel
import Verif.Lemmas.DeckRead
import Verif.Lemmas.TurbSimTS
import Verif.Lemmas.Bhawc
import Verif.Lemmas.FastFile
import Verif.Lemmas.Tecplot
import Mathlib.Data.List.TakeWhile
/-!
# Lemmas on a Bladed result file
-/
namespace Verif.BladedRead
open Verif.Py Verif.TurbSimTS

theorem shWs_iff (c : Char) : shWs c = true ↔ c = ' ' ∨ c = '\t' ∨ c = '\r' ∨ c = '\n' := by
  simp [shWs]; tauto

theorem blank_shWs {b : Str} (h : Blank b) : ∀ c ∈ b, shWs c = true := fun c hc => (shWs_iff c).2 (h c hc)

theorem shWs_isWs {c : Char} (h : shWs c = true) : isWs c = true := by
  rcases (shWs_iff c).1 h with rfl | rfl | rfl | rfl <;> decide

theorem not_shWs {c : Char} (h : isWs c = false) : shWs c = false := by
  cases hc : shWs c
  · rfl
  · rw [shWs_isWs hc] at h; cases h

theorem shGo_blank (b s : Str) (h : ∀ c ∈ b, shWs c = true) : shGo .sp (b ++ s) = shGo .sp s := by
  induction b with
  | nil => rfl
  | cons c b ih =>
    rw [List.cons_append, shGo, if_pos (h c (by simp)), ih fun x hx => h x (by simp [hx])]

theorem shGo_bare (t w r : Str) (hw : ∀ c ∈ w, isWs c = false ∧ c ≠ '\'' ∧ c ≠ '"' ∧ c ≠ '\\') :
    shGo (.word t) (w ++ r) = shGo (.word (t ++ w)) r := by
  induction w generalizing t with
  | nil => simp
  | cons c w ih =>
    obtain ⟨h1, h2, h3, h4⟩ := hw c (by simp)
    rw [List.cons_append, shGo, if_neg (by simp [not_shWs h1]), if_neg (by tauto), if_neg h4,
      ih _ fun x hx => hw x (by simp [hx])]
    simp

theorem shGo_quote (q : Char) (t w r : Str) (h : q ∉ w) (hb : q = '"' → '\\' ∉ w) :
    shGo (.quote q t) (w ++ q :: r) = shGo (.word (t ++ w)) r := by
  induction w generalizing t with
  | nil => rw [List.nil_append, shGo, if_pos rfl]; simp
  | cons c w ih =>
    simp only [List.mem_cons, not_or] at h hb
    rw [List.cons_append, shGo, if_neg (fun e => h.1 e.symm), if_neg (fun e => (hb e.2).1 e.1.symm), ih _ h.2 fun e => (hb e).2]
    simp

theorem shGo_spelled {t w : Str} (h : Spelled t w) (r : Str) (hr : r = [] ∨ ∃ c r', r = c :: r' ∧ Blank [c]) :
    shGo .sp (t ++ r) = (shGo .sp r).map (w :: ·) := by
  have key : shGo (.word w) r = (shGo .sp r).map (w :: ·) := by
    rcases hr with rfl | ⟨c, r', rfl, hc⟩
    · rfl
    · have := blank_shWs hc c (by simp)
      rw [shGo, if_pos this, shGo, if_pos this]
  cases h with
  | bare _ h hw =>
    cases t with
    | nil => exact absurd rfl h
    | cons c w =>
      obtain ⟨h1, h2, h3, h4⟩ := hw c (by simp)
      rw [List.cons_append, shGo, if_neg (by simp [not_shWs h1]), if_neg h4, if_neg (by tauto),
        shGo_bare _ _ _ fun x hx => hw x (by simp [hx])]
      exact key
  | single _ h =>
    have e : '\'' :: w ++ ['\''] ++ r = '\'' :: (w ++ '\'' :: r) := by simp
    rw [e, shGo, if_neg (by decide), if_neg (by decide), if_pos (by simp), shGo_quote _ _ _ _ h (fun e => absurd e (by decide))]
    exact key
  | double _ h hb =>
    have e : '"' :: w ++ ['"'] ++ r = '"' :: (w ++ '"' :: r) := by simp
    rw [e, shGo, if_neg (by decide), if_neg (by decide), if_pos (by simp), shGo_quote _ _ _ _ h fun _ => hb]
    exact key

theorem shlex_listed {s : Str} {ws : List Str} (h : Listed s ws) : shlex s = .ok ws := by
  have : shGo .sp s = some ws := by
    induction h with
    | nil b h => have := shGo_blank b [] (blank_shWs h); rw [List.append_nil] at this; rw [this]; rfl
    | cons b t w r ws hb ht hr hs ih => rw [List.append_assoc, shGo_blank b _ (blank_shWs hb), shGo_spelled ht r hs, ih]; rfl
  rw [shlex, this]

theorem Blank.append {a b : Str} (ha : Blank a) (hb : Blank b) : Blank (a ++ b) := fun c hc => by
  rcases List.mem_append.1 hc with h | h
  · exact ha c h
  · exact hb c h

theorem Listed.blank {s : Str} {ws : List Str} (h : Listed s ws) (b : Str) (hb : Blank b) : Listed (b ++ s) ws := by
  cases h with
  | nil _ h => exact .nil _ (hb.append h)
  | cons b' t w r ws hb' ht hr hs =>
    have : b ++ (b' ++ t ++ r) = (b ++ b') ++ t ++ r := by simp
    rw [this]; exact .cons _ _ _ _ _ (hb.append hb') ht hr hs

theorem Listed.append {s t : Str} {ws vs : List Str} (h : Listed s ws) (h2 : Listed t vs)
    (ht : t = [] ∨ ∃ c r', t = c :: r' ∧ Blank [c]) : Listed (s ++ t) (ws ++ vs) := by
  induction h with
  | nil b h => exact h2.blank b h
  | cons b t' w r ws hb ht' hr hs ih =>
    have : b ++ t' ++ r ++ t = b ++ t' ++ (r ++ t) := by simp
    rw [this]
    refine .cons _ _ _ _ _ hb ht' ih ?_
    rcases hs with rfl | ⟨c, r', rfl, hc⟩
    · simpa using ht
    · exact .inr ⟨c, r' ++ t, rfl, hc⟩

/-! stripping a list of names -/

theorem Blank.ws {b : Str} (h : Blank b) : ∀ c ∈ b, isWs c = true := fun c hc => shWs_isWs (blank_shWs h c hc)

theorem spelled_ends {t w : Str} (h : Spelled t w) : (∃ c r, t = c :: r ∧ isWs c = false) ∧ ∃ r c, t = r ++ [c] ∧ isWs c = false := by
  cases h with
  | bare _ h hw =>
    constructor
    · cases t with
      | nil => exact absurd rfl h
      | cons c w => exact ⟨c, w, rfl, (hw c (by simp)).1⟩
    · refine ⟨t.dropLast, t.getLast h, (List.dropLast_append_getLast h).symm, (hw _ (List.getLast_mem h)).1⟩
  | single _ h => exact ⟨⟨_, _, rfl, by decide⟩, _, _, rfl, by decide⟩
  | double _ h hb => exact ⟨⟨_, _, rfl, by decide⟩, _, _, rfl, by decide⟩

theorem rstrip_snoc (r b : Str) (c : Char) (h : isWs c = false) (hb : ∀ c ∈ b, isWs c = true) : rstripBy isWs (r ++ [c] ++ b) = r ++ [c] := by
  rw [Hawc2Sel.rstripBy_ws _ _ hb]
  simp [rstripBy, h]

theorem lstrip_cons (r b : Str) (c : Char) (h : isWs c = false) (hb : ∀ c ∈ b, isWs c = true) : lstripBy isWs (b ++ c :: r) = c :: r := by
  induction b with
  | nil => simp [lstripBy, h]
  | cons x b ih =>
    rw [List.cons_append, lstripBy, List.dropWhile_cons, if_pos (hb x (by simp))]
    exact ih fun y hy => hb y (by simp [hy])

/-- a list of names without the blanks at its end -/
theorem Listed.rstrip {s : Str} {ws : List Str} (h : Listed s ws) : ∃ s', s = s' ++ s.drop s'.length ∧ rstripBy isWs s = s' ∧ Listed s' ws
    ∧ (s' = [] ∨ ∃ r c, s' = r ++ [c] ∧ isWs c = false) := by
  induction h with
  | nil b h =>
    refine ⟨[], by simp, ?_, .nil _ (by simp [Blank]), .inl rfl⟩
    have := Hawc2Sel.rstripBy_ws [] b h.ws
    simpa [rstripBy] using this
  | cons b t w r ws hb ht hr hs ih =>
    obtain ⟨s', h1, h2, h3, h4⟩ := ih
    refine ⟨b ++ t ++ s', ?_, ?_, ?_, .inr ?_⟩
    · have : (b ++ t ++ r).drop (b ++ t ++ s').length = r.drop s'.length := by
        rw [List.length_append, ← List.drop_drop, List.drop_left]
      rw [this, List.append_assoc, List.append_assoc, List.append_assoc, ← h1]
    · rcases h4 with rfl | ⟨x, c, rfl, hc⟩
      · obtain ⟨x, c, rfl, hc⟩ := (spelled_ends ht).2
        have hr' : ∀ c ∈ r, isWs c = true := by
          have := h2
          simp only [rstripBy, List.reverse_eq_nil_iff] at this
          have := (Hawc2Sel.dropWhile_nil_iff _).1 this
          intro c hc; exact this c (by simpa using hc)
        have := rstrip_snoc (b ++ x) r c hc hr'
        simpa using this
      · have hr' : ∀ c' ∈ r.drop (x ++ [c]).length, isWs c' = true := by
          have e := h2
          rw [h1] at e
          intro c' hc'
          by_contra hn
          have : ∀ y : Str, rstripBy isWs ((x ++ [c]) ++ y) = x ++ [c] → ∀ z ∈ y, isWs z = true := by
            intro y hy z hz
            have hl := congrArg List.reverse hy
            simp only [rstripBy, List.reverse_reverse, List.reverse_append] at hl
            by_contra hz'
            have hz2 : ∀ y : Str, (∃ z ∈ y, isWs z = false) → ∃ a v b, y = a ++ v :: b ∧ isWs v = false ∧ ∀ u ∈ b, isWs u = true := by
              intro y hy
              induction y with
              | nil => simp at hy
              | cons u y ih =>
                obtain ⟨z, hz, hz'⟩ := hy
                by_cases hy : ∃ z ∈ y, isWs z = false
                · obtain ⟨z', hz1, hz2⟩ := hy
                  obtain ⟨a, v, b, rfl, hv, hb⟩ := ih ⟨z', hz1, hz2⟩
                  exact ⟨u :: a, v, b, rfl, hv, hb⟩
                · have hall : ∀ z ∈ y, isWs z = true := fun z' hz' => by
                    cases hh : isWs z'
                    · exact absurd ⟨z', hz', hh⟩ hy
                    · rfl
                  rcases List.mem_cons.1 hz with rfl | hz
                  · exact ⟨[], z, y, rfl, by simpa using hz', hall⟩
                  · rw [hall z hz] at hz'; cases hz'
            obtain ⟨a, v, b, rfl, hv, hb⟩ := hz2 y ⟨z, hz, by simpa using hz'⟩
            have := rstrip_snoc (x ++ [c] ++ a) b v hv hb
            have e2 : x ++ [c] ++ a ++ [v] ++ b = (x ++ [c]) ++ (a ++ v :: b) := by simp
            rw [e2, hy] at this
            have := congrArg List.length this
            simp at this
          exact hn (this _ e c' hc')
        have e : b ++ t ++ r = (b ++ t ++ x) ++ [c] ++ r.drop (x ++ [c]).length := by
          conv_lhs => rw [h1]
          simp
        rw [e, rstrip_snoc _ _ _ hc hr']
        simp
    · refine .cons _ _ _ _ _ hb ht h3 ?_
      rcases hs with rfl | ⟨c, r', rfl, hc⟩
      · left; cases s' with
        | nil => rfl
        | cons _ _ => simp at h1
      · cases s' with
        | nil => exact .inl rfl
        | cons y s' => simp only [List.cons_append, List.cons.injEq] at h1; exact .inr ⟨y, s', rfl, h1.1 ▸ hc⟩
    · rcases h4 with rfl | ⟨x, c, rfl, hc⟩
      · obtain ⟨x, c, rfl, hc⟩ := (spelled_ends ht).2
        exact ⟨b ++ x, c, by simp, hc⟩
      · exact ⟨b ++ t ++ x, c, by simp, hc⟩

theorem Listed.lstrip {s : Str} {ws : List Str} (h : Listed s ws) : Listed (lstripBy isWs s) ws := by
  cases h with
  | nil _ h => rw [lstripBy, (Hawc2Sel.dropWhile_nil_iff s).2 h.ws]; exact .nil _ (by simp [Blank])
  | cons b t w r ws hb ht hr hs =>
    obtain ⟨c, x, rfl, hc⟩ := (spelled_ends ht).1
    have : b ++ c :: x ++ r = b ++ c :: (x ++ r) := by simp
    rw [this, lstrip_cons _ _ _ hc hb.ws]
    exact .cons [] (c :: x) w r ws (by simp [Blank]) ht hr hs

theorem Listed.strip {s : Str} {ws : List Str} (h : Listed s ws) : Listed (strip s) ws := by
  obtain ⟨s', _, h2, h3, _⟩ := h.lstrip.rstrip
  rw [Verif.Py.strip, stripBy, h2]; exact h3

/-! tabs -/

theorem Blank.tabs {b : Str} (h : Blank b) : Blank (replaceChar '\t' [' '] b) := fun c hc => by
  simp only [replaceChar, List.mem_flatMap] at hc
  obtain ⟨x, hx, hc⟩ := hc
  split at hc
  · left; simpa using hc
  · rw [List.mem_singleton] at hc; subst hc; exact h _ hx

theorem tabs_append (a b : Str) : replaceChar '\t' [' '] (a ++ b) = replaceChar '\t' [' '] a ++ replaceChar '\t' [' '] b := by
  simp [replaceChar]

theorem tabs_self (a : Str) (h : '\t' ∉ a) : replaceChar '\t' [' '] a = a := by
  induction a with
  | nil => rfl
  | cons c a ih =>
    simp only [List.mem_cons, not_or] at h
    rw [show c :: a = [c] ++ a from rfl, tabs_append, ih h.2]
    simp [replaceChar, Ne.symm h.1]

theorem Spelled.tabs {t w : Str} (h : Spelled t w) (hw : '\t' ∉ w) : '\t' ∉ t := by
  cases h with
  | bare => exact hw
  | single => simpa using hw
  | double => simpa using hw

theorem Listed.tabs {s : Str} {ws : List Str} (h : Listed s ws) (hw : ∀ w ∈ ws, '\t' ∉ w) : Listed (replaceChar '\t' [' '] s) ws := by
  induction h with
  | nil b h => exact .nil _ h.tabs
  | cons b t w r ws hb ht hr hs ih =>
    rw [tabs_append, tabs_append, tabs_self t (ht.tabs (hw w (by simp)))]
    refine .cons _ _ _ _ _ hb.tabs ht (ih fun x hx => hw x (by simp [hx])) ?_
    rcases hs with rfl | ⟨c, r', rfl, hc⟩
    · exact .inl rfl
    · right
      rw [show c :: r' = [c] ++ r' from rfl, tabs_append]
      have := hc.tabs
      by_cases e : c = '\t'
      · subst e; exact ⟨' ', _, rfl, by simp [Blank]⟩
      · exact ⟨c, replaceChar '\t' [' '] r', by simp [replaceChar, e], hc⟩

/-! units -/

theorem repTT_parts (ps : List Part) (h : Apart ps) : repTT (ps.flatMap Part.text) =
    ps.flatMap (fun p => match p with | .TT => "s^2".toList | p => p.text) := by
  induction ps with
  | nil => rfl
  | cons p ps ih =>
    have hps : Apart ps := by
      cases ps with
      | nil => trivial
      | cons b r => exact h.2
    rw [List.flatMap_cons, List.flatMap_cons, ← ih hps]
    have one : ∀ c : Char, c ≠ 'T' → repTT ([c] ++ ps.flatMap Part.text) = [c] ++ repTT (ps.flatMap Part.text) := by
      intro c hc
      rw [List.singleton_append, repTT]
      · rfl
      · intro r hr; exact absurd hr hc
    cases p with
    | T =>
      show repTT ('T' :: ps.flatMap Part.text) = 'T' :: repTT (ps.flatMap Part.text)
      rw [repTT]
      intro r _ h2
      cases ps with
      | nil => cases h2
      | cons b r' =>
        have hb : ¬ b.isTime := fun hb => h.1 ⟨trivial, hb⟩
        cases b with
        | T => exact hb trivial
        | TT => exact hb trivial
        | A => cases h2
        | P => cases h2
        | L => cases h2
        | F => cases h2
        | M => cases h2
        | char c hc =>
          rw [List.flatMap_cons] at h2
          injection h2 with h3 _
          exact hc (by rw [h3]; decide)
    | TT => rfl
    | A => exact one 'A' (by decide)
    | P => exact one 'P' (by decide)
    | L => exact one 'L' (by decide)
    | F => exact one 'F' (by decide)
    | M => exact one 'M' (by decide)
    | char c hc => exact one c fun e => hc (by rw [e]; decide)

theorem replaceChar_flatMap (a : Char) (b : Str) (f : Part → Str) (ps : List Part) :
    replaceChar a b (ps.flatMap f) = ps.flatMap fun p => replaceChar a b (f p) := by
  simp [replaceChar, List.flatMap_assoc]

theorem repUnits_parts (ps : List Part) (h : Apart ps) : repUnits (ps.flatMap Part.text) = ps.flatMap Part.si := by
  rw [repUnits, repTT_parts ps h]
  simp only [replaceChar_flatMap]
  congr 1
  funext p
  cases p with
  | char c hc =>
    have : ∀ x ∈ "TAPLFM".toList, c ≠ x := fun x hx e => hc (e ▸ hx)
    simp [Part.text, Part.si, replaceChar, this 'T' (by decide), this 'A' (by decide), this 'P' (by decide), this 'L' (by decide),
      this 'F' (by decide), this 'M' (by decide)]
  | _ => decide

/-! dispatch -/

/-- the keywords -/
inductive Key where
  | ndim | dim | fmt | lab | val | tick | var | unit | min | step
deriving DecidableEq

/-- as they stand at the start of a line without tabs -/
def Key.text : Key → Str
  | ndim => "NDIMENS".toList | dim => "DIMENS".toList | fmt => "FORMAT".toList | lab => "GENLAB".toList
  | val => "AXIVAL".toList | tick => "AXITICK".toList | var => "VARIAB".toList | unit => "VARUNIT".toList
  | min => "MIN ".toList | step => "STEP".toList

def tab (l : Str) : Str := replaceChar '\t' [' '] l

theorem turn_none {F : Type} (N : Num F) (l : Str) (nx : Option Str) (d : Dat F) (h : ∀ k : Key, ¬ k.text <+: tab l) : turn N l nx d = .ok d := by
  have h' : ∀ k : Key, startsWith (tab l) k.text = false := fun k => by
    cases e : startsWith (tab l) k.text
    · rfl
    · exact absurd (List.isPrefixOf_iff_prefix.1 e) (h k)
  have := h' .ndim; have := h' .dim; have := h' .fmt; have := h' .lab; have := h' .val; have := h' .tick
  have := h' .var; have := h' .unit; have := h' .min; have := h' .step
  simp only [Key.text, tab] at *
  unfold turn
  simp only [*]
  rfl

theorem startsWith_app (k r : Str) : startsWith (k ++ r) k = true := List.isPrefixOf_iff_prefix.2 ⟨r, rfl⟩

section
variable {F : Type} (N : Num F) (nx : Option Str) (d : Dat F)

theorem turn_ndim (r : Str) (k : Int) (w : Str) (hw : (words r).getLast? = some w) (hk : N.int w = some k) :
    turn N ("NDIMENS".toList ++ r) nx d = .ok { d with ndim := some k } := by
  have e : tab ("NDIMENS".toList ++ r) = "NDIMENS".toList ++ tab r := by rw [tab, tabs_append]; rfl
  unfold turn
  simp only [← tab.eq_1] at *
  rw [e]
  have hne : words r ≠ [] := by intro h; rw [h] at hw; cases hw
  have hi : intAt N (words (strip (("NDIMENS".toList ++ tab r).drop 7))) (-1) = .ok k := by
    have : ("NDIMENS".toList ++ tab r).drop 7 = tab r := rfl
    rw [this, words_strip, tab, words_replace_tab, intAt, FastDict.pyIndex]
    have hl : 1 ≤ (words r).length := List.length_pos_iff.2 hne
    rw [if_neg (by decide), if_pos (by omega)]
    have : ((-1 : Int) + ((words r).length : Int)).toNat = (words r).length - 1 := by omega
    rw [this, ← List.getLast?_eq_getElem?, hw]
    simp only [hk]
  rw [if_pos (startsWith_app _ _), hi]
  rfl

theorem intAt_ok (l : List Str) (i : Nat) (w : Str) (k : Int) (h : l[i]? = some w) (hk : N.int w = some k) : intAt N l (i : Int) = .ok k := by
  rw [intAt, FastDict.pyIndex, if_pos (by omega)]
  simp only [Int.toNat_natCast, h, hk]

theorem turn_dim (q : Str) (n : Nat) (hn : n = 2 ∨ n = 3) (hd : d.ndim = some (n : Int)) (a b : Str) (ns nm : Int) (ha : (words q)[0]? = some a)
    (hs : N.int a = some ns) (hb : (words q)[n - 1]? = some b) (hm : N.int b = some nm) :
    turn N ("DIMENS".toList ++ q) nx d = .ok (if n = 2 then { d with nSensors := some ns, nMajor := some nm, nSections := some 1, secs := some .nil }
      else { d with nSensors := some ns, nMajor := some nm }) := by
  have e : tab ("DIMENS".toList ++ q) = "DIMENS".toList ++ tab q := by rw [tab, tabs_append]; rfl
  unfold turn
  simp only [← tab.eq_1] at *
  rw [e, if_neg (by simp [startsWith]), if_pos (startsWith_app _ _)]
  have ht : words (strip (("DIMENS".toList ++ tab q).drop 6)) = words q := by
    have : ("DIMENS".toList ++ tab q).drop 6 = tab q := rfl
    rw [this, words_strip, tab, words_replace_tab]
  rw [ht, hd]
  have h0 := intAt_ok N (words q) 0 a ns ha hs
  have h1 := intAt_ok N (words q) (n - 1) b nm hb hm
  have : ((n - 1 : Nat) : Int) = (n : Int) - 1 := by omega
  rw [this] at h1
  rw [show ((0 : Nat) : Int) = 0 from rfl] at h0
  rw [h0]
  show (do let nm ← intAt N (words q) ((n : Int) - 1); _) = _
  rw [h1]
  rcases hn with rfl | rfl <;> rfl

theorem strip_parts (a : Str) : ∃ u v, (∀ c ∈ u, isWs c = true) ∧ (∀ c ∈ v, isWs c = true) ∧ a = u ++ strip a ++ v := by
  refine ⟨a.takeWhile isWs, ((a.dropWhile isWs).reverse.takeWhile isWs).reverse, ?_, ?_, ?_⟩
  · intro c hc; exact List.mem_takeWhile_imp hc
  · intro c hc; exact List.mem_takeWhile_imp (List.mem_reverse.1 hc)
  · rw [strip, stripBy, rstripBy, lstripBy, List.append_assoc, ← List.reverse_append, List.takeWhile_append_dropWhile, List.reverse_reverse,
      List.takeWhile_append_dropWhile]

theorem strip_says {a w : Str} (h : strip a = w) (ht : '\t' ∉ w) : strip (tab a) = w := by
  obtain ⟨u, v, hu, hv, e⟩ := strip_parts a
  have hw : strip w = w := by
    rw [← h]; exact stripBy_eq_self isWs _ (FastLine.strip_head a) (FastLine.strip_last a)
  have ht' : ∀ u : Str, (∀ c ∈ u, isWs c = true) → ∀ c ∈ tab u, isWs c = true := by
    intro u hu c hc
    simp only [tab, replaceChar, List.mem_flatMap] at hc
    obtain ⟨x, hx, hc⟩ := hc
    split at hc
    · rw [List.mem_singleton] at hc; subst hc; decide
    · rw [List.mem_singleton] at hc; subst hc; exact hu _ hx
  rw [e, h, tab, tabs_append, tabs_append, tabs_self w ht, List.append_assoc]
  exact (Hawc2Sel.strip_ends _ _ _ (ht' u hu) (ht' v hv)).trans hw

theorem tab_cons_ws (c : Char) (r : Str) (h : isWs c = true) : ∃ c', tab (c :: r) = c' :: tab r ∧ isWs c' = true := by
  by_cases e : c = '\t'
  · subst e; exact ⟨' ', rfl, by decide⟩
  · exact ⟨c, by simp [tab, replaceChar, e], h⟩

theorem strip_cons_ws (c : Char) (s : Str) (hc : isWs c = true) : strip (c :: s) = strip s :=
  Hawc2Sel.strip_ws_append [c] s (by simpa using hc)

theorem turn_fmt (r f : Str) (c : Char) (h : Says r (f ++ [c])) :
    turn N ("FORMAT".toList ++ r) nx d = .ok { d with double := some (c == '8') } := by
  obtain ⟨⟨b, r', rfl, hb⟩, hs, ht⟩ := h
  obtain ⟨b', e', hb'⟩ := tab_cons_ws b r' hb
  have e : tab ("FORMAT".toList ++ b :: r') = "FORMAT".toList ++ b' :: tab r' := by rw [← e', tab, tabs_append]; rfl
  have hst := strip_says hs ht
  rw [e', strip_cons_ws _ _ hb'] at hst
  unfold turn
  simp only [← tab.eq_1] at *
  rw [e, if_neg (by simp [startsWith]), if_neg (by simp [startsWith]), if_pos (startsWith_app _ _)]
  have : ("FORMAT".toList ++ b' :: tab r').drop 7 = tab r' := rfl
  rw [this, hst]
  simp

theorem turn_lab (r g : Str) (hs : strip r = g) (ht : '\t' ∉ g) :
    turn N ("GENLAB".toList ++ r) nx d = .ok { d with category := some (replaceChar '\'' [] g) } := by
  have e : tab ("GENLAB".toList ++ r) = "GENLAB".toList ++ tab r := by rw [tab, tabs_append]; rfl
  have hst := strip_says hs ht
  unfold turn
  simp only [← tab.eq_1] at *
  rw [e, if_neg (by simp [startsWith]), if_neg (by simp [startsWith]), if_neg (by simp [startsWith]), if_pos (startsWith_app _ _)]
  have : ("GENLAB".toList ++ tab r).drop 6 = tab r := rfl
  rw [this, hst]

theorem turn_val (c : Char) (r : Str) (hc : isWs c = true) (l : List F) (h : (words (c :: r)).mapM N.flt = some l) :
    turn N ("AXIVAL".toList ++ c :: r) nx d = .ok { d with secs := some (.vals l), nSections := some l.length } := by
  obtain ⟨b', e', hb'⟩ := tab_cons_ws c r hc
  have e : tab ("AXIVAL".toList ++ c :: r) = "AXIVAL".toList ++ b' :: tab r := by rw [← e', tab, tabs_append]; rfl
  unfold turn
  simp only [← tab.eq_1] at *
  rw [e, if_neg (by simp [startsWith]), if_neg (by simp [startsWith]), if_neg (by simp [startsWith]), if_neg (by simp [startsWith]),
    if_pos (startsWith_app _ _)]
  have : ("AXIVAL".toList ++ b' :: tab r).drop 7 = tab r := rfl
  rw [words_cons_ws _ _ hc] at h
  rw [this, tab, words_replace_tab, fltsOf, h]
  rfl

theorem turn_tick (r : Str) :
    turn N ("AXITICK".toList ++ r) nx d =
      (let l := splitTick (stripBy (· == '\'') (strip ((withNext "AXISLAB".toList ("AXITICK".toList ++ tab r) nx).drop 7)))
       .ok { d with secs := some (.ticks l), nSections := some l.length }) := by
  have e : tab ("AXITICK".toList ++ r) = "AXITICK".toList ++ tab r := by rw [tab, tabs_append]; rfl
  unfold turn
  simp only [← tab.eq_1] at *
  rw [e, if_neg (by simp [startsWith]), if_neg (by simp [startsWith]), if_neg (by simp [startsWith]), if_neg (by simp [startsWith]),
    if_neg (by simp [startsWith]), if_pos (startsWith_app _ _)]

theorem turn_var (r : Str) (l : List Str) (h : shlex ((withNext "VARUNIT".toList ("VARIAB".toList ++ tab r) nx).drop 6) = .ok l) :
    turn N ("VARIAB".toList ++ r) nx d = .ok { d with names := some l } := by
  have e : tab ("VARIAB".toList ++ r) = "VARIAB".toList ++ tab r := by rw [tab, tabs_append]; rfl
  unfold turn
  simp only [← tab.eq_1] at *
  rw [e, if_neg (by simp [startsWith]), if_neg (by simp [startsWith]), if_neg (by simp [startsWith]), if_neg (by simp [startsWith]),
    if_neg (by simp [startsWith]), if_neg (by simp [startsWith]), if_pos (startsWith_app _ _), h]
  rfl

theorem turn_unit (r : Str) (l : List Str) (h : shlex (strip ((withNext "AXISLAB".toList ("VARUNIT".toList ++ tab r) nx).drop 7)) = .ok l) :
    turn N ("VARUNIT".toList ++ r) nx d = .ok { d with units := some (l.map repUnits) } := by
  have e : tab ("VARUNIT".toList ++ r) = "VARUNIT".toList ++ tab r := by rw [tab, tabs_append]; rfl
  unfold turn
  simp only [← tab.eq_1] at *
  rw [e, if_neg (by simp [startsWith]), if_neg (by simp [startsWith]), if_neg (by simp [startsWith]), if_neg (by simp [startsWith]),
    if_neg (by simp [startsWith]), if_neg (by simp [startsWith]), if_neg (by simp [startsWith]), if_pos (startsWith_app _ _), h]
  rfl

theorem turn_min (k r w : Str) (hk : k = "MIN ".toList ∨ k = "MIN\t".toList) (y : F) (hs : strip r = w) (ht : '\t' ∉ w) (h : N.flt w = some y) :
    turn N (k ++ r) nx d = .ok { d with start := some y } := by
  have e : tab (k ++ r) = "MIN ".toList ++ tab r := by rcases hk with rfl | rfl <;> (rw [tab, tabs_append]; rfl)
  have hst := strip_says hs ht
  unfold turn
  simp only [← tab.eq_1] at *
  rw [e, if_neg (by simp [startsWith]), if_neg (by simp [startsWith]), if_neg (by simp [startsWith]), if_neg (by simp [startsWith]),
    if_neg (by simp [startsWith]), if_neg (by simp [startsWith]), if_neg (by simp [startsWith]), if_neg (by simp [startsWith]),
    if_pos (startsWith_app _ _)]
  have : ("MIN ".toList ++ tab r).drop 3 = ' ' :: tab r := rfl
  rw [this, strip_cons_ws _ _ (by decide), hst, fltOf, h]
  rfl

theorem turn_step (r w : Str) (y : F) (hs : strip r = w) (ht : '\t' ∉ w) (h : N.flt w = some y) :
    turn N ("STEP".toList ++ r) nx d = .ok { d with step := some y } := by
  have e : tab ("STEP".toList ++ r) = "STEP".toList ++ tab r := by rw [tab, tabs_append]; rfl
  have hst := strip_says hs ht
  unfold turn
  simp only [← tab.eq_1] at *
  rw [e, if_neg (by simp [startsWith]), if_neg (by simp [startsWith]), if_neg (by simp [startsWith]), if_neg (by simp [startsWith]),
    if_neg (by simp [startsWith]), if_neg (by simp [startsWith]), if_neg (by simp [startsWith]), if_neg (by simp [startsWith]),
    if_neg (by simp [startsWith]), if_pos (startsWith_app _ _)]
  have : ("STEP".toList ++ tab r).drop 4 = tab r := rfl
  rw [this, hst, fltOf, h]
  rfl

end

/-! lists that go on in the next line -/

/-- a kept line: with or without its end -/
def Kept (l k : Str) : Prop := k = l ∨ k = l ++ ['\n']

theorem Kept.ends {l k : Str} (h : Kept l k) : ∃ e, k = l ++ e ∧ Blank e := by
  rcases h with rfl | rfl
  · exact ⟨[], by simp, by simp [Blank]⟩
  · exact ⟨['\n'], rfl, by simp [Blank]⟩

theorem Kept.strip {l k : Str} (h : Kept l k) : strip k = strip l := by
  obtain ⟨e, rfl, he⟩ := h.ends
  exact Hawc2Sel.strip_append_ws _ _ he.ws

theorem blank_start {e : Str} (h : Blank e) : e = [] ∨ ∃ c r', e = c :: r' ∧ Blank [c] := by
  cases e with
  | nil => exact .inl rfl
  | cons c r => exact .inr ⟨c, r, rfl, fun x hx => h x (by rw [List.mem_singleton] at hx; simp [hx])⟩

theorem Listed.end {s : Str} {ws : List Str} (h : Listed s ws) {e : Str} (he : Blank e) : Listed (s ++ e) ws := by
  have := h.append (.nil e he) (blank_start he)
  simpa using this

/-- the next line of a file, as it is kept -/
def NextKept (n k : Option Str) : Prop := (n = none ∧ k = none) ∨ ∃ a b, n = some a ∧ k = some b ∧ Kept a b

theorem listed_cont (stop k : Str) (hk : IsWord k) (ls : List Str) (i : Nat) (r e : Str) (ws : List Str) (nx : Option Str)
    (h : Continued stop Listed ls i r ws) (hn : NextKept ls[i + 1]? nx) (he : Blank e) (ht : ∀ w ∈ ws, '\t' ∉ w) :
    Listed ((withNext stop (k ++ tab (r ++ e)) nx).drop k.length) ws := by
  rcases h with ⟨h, hs⟩ | ⟨n, u, v, hl, hs, hu, hv, rfl⟩
  · have : withNext stop (k ++ tab (r ++ e)) nx = k ++ tab (r ++ e) := by
      rcases hn with ⟨_, rfl⟩ | ⟨a, b, ha, rfl, hab⟩
      · rfl
      · simp only [withNext]
        rw [if_pos]
        rw [hab.strip]
        exact List.isPrefixOf_iff_prefix.2 (hs a ha)
    rw [this, List.drop_left]
    exact (h.end he).tabs ht
  · rcases hn with ⟨h', _⟩ | ⟨a, b, ha, rfl, hab⟩
    · rw [hl] at h'; cases h'
    · rw [hl] at ha
      injection ha with ha
      subst ha
      simp only [withNext]
      rw [if_neg, hab.strip, Verif.Tecplot.strip_word_append k _ hk, List.append_assoc, List.drop_left]
      · obtain ⟨s', _, h2, h3, _⟩ := ((hu.end he).tabs fun w hw => ht w (by simp [hw])).rstrip
        rw [tab, h2]
        exact h3.append (hv.strip.blank [' '] (by simp [Blank])) (.inr ⟨' ', _, rfl, by simp [Blank]⟩)
      · rw [hab.strip]
        exact fun hp => hs (List.isPrefixOf_iff_prefix.1 hp)

/-! sections with names -/

theorem splitTick_word (w r : Str) (h : '\'' ∉ w) : splitTick (w ++ "' '".toList ++ r) = w :: splitTick r := by
  induction w with
  | nil => rfl
  | cons c w ih =>
    simp only [List.mem_cons, not_or] at h
    rw [List.cons_append, List.cons_append, splitTick, ih h.2]
    intro r' hc; exact absurd hc.symm h.1

theorem splitTick_last (w : Str) (h : '\'' ∉ w) : splitTick w = [w] := by
  induction w with
  | nil => rfl
  | cons c w ih =>
    simp only [List.mem_cons, not_or] at h
    rw [splitTick, ih h.2]
    intro r' hc; exact absurd hc.symm h.1

theorem splitTick_join (ws : List Str) (hne : ws ≠ []) (h : ∀ w ∈ ws, '\'' ∉ w) : splitTick (joinWith "' '".toList ws) = ws := by
  induction ws with
  | nil => exact absurd rfl hne
  | cons w ws ih =>
    cases ws with
    | nil => exact splitTick_last w (h w (by simp))
    | cons v vs =>
      rw [joinWith_cons _ _ _ (by simp), splitTick_word _ _ (h w (by simp)), ih (by simp) fun x hx => h x (by simp [hx])]

theorem quoted_join (ws : List Str) (hne : ws ≠ []) :
    joinWith [' '] (ws.map fun w => '\'' :: w ++ ['\'']) = '\'' :: joinWith "' '".toList ws ++ ['\''] := by
  induction ws with
  | nil => exact absurd rfl hne
  | cons w ws ih =>
    cases ws with
    | nil => rfl
    | cons v vs =>
      rw [List.map_cons, joinWith_cons _ _ _ (by simp), ih (by simp), joinWith_cons _ w (v :: vs) (by simp)]
      simp

theorem join_ends (sep : Str) (ws : List Str) (hne : ws ≠ []) (h : ∀ w ∈ ws, w ≠ [] ∧ '\'' ∉ w) :
    (∀ c, (joinWith sep ws).head? = some c → (c == '\'') = false) ∧ ∀ c, (joinWith sep ws).getLast? = some c → (c == '\'') = false := by
  constructor
  · intro c hc
    cases ws with
    | nil => exact absurd rfl hne
    | cons w ws =>
      rw [joinWith_head? _ _ _ (h w (by simp)).1] at hc
      have : c ∈ w := List.mem_of_mem_head? hc
      simp only [beq_eq_false_iff_ne]; rintro rfl; exact (h w (by simp)).2 this
  · intro c hc
    have h1 : ∃ w ∈ ws, c ∈ w := by
      rw [joinWith_getLast? _ _ fun w hw => (h w hw).1] at hc
      obtain ⟨w, hw, hcw⟩ := Option.bind_eq_some_iff.1 hc
      exact ⟨w, List.mem_of_getLast? hw, List.mem_of_getLast? hcw⟩
    obtain ⟨w, hw, hcw⟩ := h1
    simp only [beq_eq_false_iff_ne]; rintro rfl; exact (h w hw).2 hcw

theorem quoted_tab (ws : List Str) (h : ∀ w ∈ ws, '\t' ∉ w) : '\t' ∉ joinWith [' '] (ws.map fun w => '\'' :: w ++ ['\'']) := by
  intro hc
  rcases mem_joinWith _ _ _ hc with hc | ⟨w, hw, hc⟩
  · simp at hc
  · obtain ⟨v, hv, rfl⟩ := List.mem_map.1 hw
    have := h v hv
    simp [this] at hc

theorem quoted_strip (ws : List Str) (hne : ws ≠ []) : strip (joinWith [' '] (ws.map fun w => '\'' :: w ++ ['\''])) =
    joinWith [' '] (ws.map fun w => '\'' :: w ++ ['\'']) := by
  rw [quoted_join ws hne]
  refine stripBy_eq_self isWs _ ?_ ?_
  · intro c hc; simp at hc; subst hc; decide
  · intro c hc
    rw [List.getLast?_append] at hc
    simp at hc; subst hc; decide

theorem ticks_cont (ls : List Str) (i : Nat) (r e : Str) (ws : List Str) (nx : Option Str)
    (h : Continued "AXISLAB".toList Ticks ls i r ws) (hn : NextKept ls[i + 1]? nx) (he : Blank e) :
    splitTick (stripBy (· == '\'') (strip ((withNext "AXISLAB".toList ("AXITICK".toList ++ tab (r ++ e)) nx).drop 7))) = ws := by
  have fin : ∀ ws : List Str, ws ≠ [] → (∀ w ∈ ws, w ≠ [] ∧ '\'' ∉ w ∧ '\t' ∉ w) →
      splitTick (stripBy (· == '\'') (joinWith [' '] (ws.map fun w => '\'' :: w ++ ['\'']))) = ws := by
    intro ws hne hw
    rw [quoted_join ws hne]
    obtain ⟨h1, h2⟩ := join_ends "' '".toList ws hne fun w hx => ⟨(hw w hx).1, (hw w hx).2.1⟩
    have : stripBy (· == '\'') ('\'' :: joinWith "' '".toList ws ++ ['\'']) = joinWith "' '".toList ws := by
      rw [stripBy, lstripBy, List.cons_append, List.dropWhile_cons, if_pos (by simp)]
      have := stripBy_eq_self (· == '\'') _ h1 h2
      rw [stripBy, lstripBy] at this
      have hj : joinWith "' '".toList ws ≠ [] := by
        intro hj
        cases ws with
        | nil => exact absurd rfl hne
        | cons w ws =>
          have := joinWith_head? "' '".toList w ws (hw w (by simp)).1
          rw [hj] at this
          exact (hw w (by simp)).1 (List.head?_eq_none_iff.1 this.symm)
      have hd : (joinWith "' '".toList ws ++ ['\'']).dropWhile (· == '\'') = joinWith "' '".toList ws ++ ['\''] := by
        cases hjj : joinWith "' '".toList ws with
        | nil => exact absurd hjj hj
        | cons c r =>
          have := h1 c (by rw [hjj]; rfl)
          rw [List.cons_append, List.dropWhile_cons, if_neg (by simp [this])]
      rw [hd, rstripBy, List.reverse_append, List.reverse_singleton, List.singleton_append, List.dropWhile_cons, if_pos (by simp)]
      have hd2 : (joinWith "' '".toList ws).dropWhile (· == '\'') = joinWith "' '".toList ws := by
        cases hjj : joinWith "' '".toList ws with
        | nil => rfl
        | cons c r =>
          have := h1 c (by rw [hjj]; rfl)
          rw [List.dropWhile_cons, if_neg (by simp [this])]
      rw [hd2] at this
      exact this
    rw [this, splitTick_join ws hne fun w hx => (hw w hx).2.1]
  rcases h with ⟨⟨h, hne, hw⟩, hs⟩ | ⟨n, u, v, hl, hs, ⟨hu, hune, huw⟩, ⟨hv, hvne, hvw⟩, rfl⟩
  · have : withNext "AXISLAB".toList ("AXITICK".toList ++ tab (r ++ e)) nx = "AXITICK".toList ++ tab (r ++ e) := by
      rcases hn with ⟨_, rfl⟩ | ⟨a, b, ha, rfl, hab⟩
      · rfl
      · simp only [withNext]
        rw [if_pos]
        rw [hab.strip]
        exact List.isPrefixOf_iff_prefix.2 (hs a ha)
    rw [this, show ("AXITICK".toList ++ tab (r ++ e)).drop 7 = tab (r ++ e) from rfl]
    have hre : strip (r ++ e) = joinWith [' '] (ws.map fun w => '\'' :: w ++ ['\'']) := by rw [Hawc2Sel.strip_append_ws _ _ he.ws, h]
    rw [strip_says hre (quoted_tab ws fun w hx => (hw w hx).2.2), fin ws hne hw]
  · rcases hn with ⟨h', _⟩ | ⟨a, b, ha, rfl, hab⟩
    · rw [hl] at h'; cases h'
    · rw [hl] at ha
      obtain rfl := Option.some.inj ha
      simp only [withNext]
      have hd7 : ∀ y : Str, ("AXITICK".toList ++ y).drop 7 = y := fun y => List.drop_left' (by decide)
      rw [if_neg, hab.strip, Verif.Tecplot.strip_word_append "AXITICK".toList (tab (r ++ e)) ⟨by decide, by decide⟩, List.append_assoc,
        hd7, hv]
      · have hre : strip (r ++ e) = joinWith [' '] (u.map fun w => '\'' :: w ++ ['\'']) := by rw [Hawc2Sel.strip_append_ws _ _ he.ws, hu]
        have hx := strip_says hre (quoted_tab u fun w hx => (huw w hx).2.2)
        obtain ⟨p, q, hp, hq, hpq⟩ := strip_parts (tab (r ++ e))
        rw [hx] at hpq
        have : rstripBy isWs (tab (r ++ e)) = p ++ joinWith [' '] (u.map fun w => '\'' :: w ++ ['\'']) := by
          rw [hpq, quoted_join u hune]
          have := rstrip_snoc (p ++ '\'' :: joinWith "' '".toList u) q '\'' (by decide) hq
          simpa using this
        rw [this, List.append_assoc, Hawc2Sel.strip_ws_append _ _ hp]
        have hj : joinWith [' '] (u.map fun w => '\'' :: w ++ ['\'']) ++ ' ' :: joinWith [' '] (v.map fun w => '\'' :: w ++ ['\'']) =
            joinWith [' '] ((u ++ v).map fun w => '\'' :: w ++ ['\'']) := by
          rw [List.map_append, joinWith_append _ _ _ (by simpa using hune) (by simpa using hvne)]; simp
        rw [hj, quoted_strip _ (by simp [hune])]
        exact fin _ (by simp [hune]) fun w hw => (List.mem_append.1 hw).elim (huw w) (hvw w)
      · rw [hab.strip]
        exact fun hp => hs (List.isPrefixOf_iff_prefix.1 hp)

/-! the lines of a file -/

theorem keepLines_of {s : Str} {ls : List Str} (h : HasLines s ls) (i : Nat) : NextKept ls[i]? (Hawc2Sel.keepLines s)[i]? := by
  obtain ⟨hn, h | ⟨a, l, rfl, hl, h⟩⟩ := h
  · rw [h, Hawc2Sel.keepLines_unlines ls hn, List.getElem?_map]
    cases hi : ls[i]? with
    | none => exact .inl ⟨rfl, rfl⟩
    | some x => exact .inr ⟨x, _, rfl, rfl, .inr rfl⟩
  · have hk : Hawc2Sel.keepLines s = a.map (· ++ ['\n']) ++ [l] := by
      rw [h, Hawc2Sel.keepLines, splitOn_tail a l hn]
      simp [hl]
    rw [hk]
    by_cases hi : i < a.length
    · rw [List.getElem?_append_left hi, List.getElem?_append_left (by simpa using hi), List.getElem?_map]
      exact .inr ⟨a[i], _, List.getElem?_eq_getElem hi, by rw [List.getElem?_eq_getElem hi]; rfl, .inr rfl⟩
    · rw [List.getElem?_append_right (by omega), List.getElem?_append_right (by simp; omega), List.length_map]
      by_cases h0 : i - a.length = 0
      · rw [h0]; exact .inr ⟨l, l, rfl, rfl, .inl rfl⟩
      · obtain ⟨k, hk⟩ : ∃ k, i - a.length = k + 1 := ⟨i - a.length - 1, by omega⟩
        rw [hk]; exact .inl ⟨rfl, rfl⟩

/-- the turn of index `n` -/
def turnAt {F : Type} (N : Num F) (L : List Str) (n : Nat) (d : Dat F) : Except Err (Dat F) :=
  match L[n]? with
  | none => .ok d
  | some l => turn N l L[n + 1]? d

theorem turns_succ {F : Type} (N : Num F) (n : Nat) (L : List Str) (d : Dat F) :
    turns N (n + 1) L d = (turns N n L d).bind (turnAt N L n) := by
  induction n generalizing L d with
  | zero =>
    cases L with
    | nil => rfl
    | cons l r =>
      rw [turns, turns]
      have : turnAt N (l :: r) 0 d = turn N l r.head? d := by
        cases r <;> rfl
      show (turn N l r.head? d).bind _ = turnAt N (l :: r) 0 d
      rw [this]
      cases turn N l r.head? d with
      | error _ => rfl
      | ok d' => cases r <;> rfl
  | succ n ih =>
    cases L with
    | nil => rfl
    | cons l r =>
      rw [turns, turns]
      show (turn N l r.head? d).bind _ = ((turn N l r.head? d).bind _).bind _
      cases turn N l r.head? d with
      | error _ => rfl
      | ok d' => exact ih r d'

theorem tab_prefix (k l : Str) (hk : ' ' ∉ k) (h : k <+: tab l) : k <+: l := by
  induction k generalizing l with
  | nil => exact List.nil_prefix
  | cons c k ih =>
    simp only [List.mem_cons, not_or] at hk
    cases l with
    | nil => obtain ⟨r, hr⟩ := h; cases hr
    | cons x l =>
      by_cases e : x = '\t'
      · subst e
        obtain ⟨r, hr⟩ := h
        have : tab ('\t' :: l) = ' ' :: tab l := rfl
        rw [this, List.cons_append] at hr
        injection hr with h1 _
        exact absurd h1.symm hk.1
      · have : tab (x :: l) = x :: tab l := by simp [tab, replaceChar, e]
        rw [this, List.cons_prefix_cons] at h
        rw [List.cons_prefix_cons]
        exact ⟨h.1, ih _ hk.2 h.2⟩

/-- a key at the start of a kept line stands at the start of the line -/
theorem kept_prefix {l k x : Str} (h : Kept l k) (hx : '\n' ∉ x) (hp : x <+: k) : x <+: l := by
  rcases h with rfl | rfl
  · exact hp
  · induction x generalizing l with
    | nil => exact List.nil_prefix
    | cons c x ih =>
      simp only [List.mem_cons, not_or] at hx
      cases l with
      | nil =>
        rw [List.nil_append, List.cons_prefix_cons] at hp
        exact absurd hp.1.symm hx.1
      | cons y l =>
        rw [List.cons_append, List.cons_prefix_cons] at hp
        rw [List.cons_prefix_cons]
        exact ⟨hp.1, ih hx.2 hp.2⟩

/-- the texts of the keys in a line with tabs -/
def Key.texts : Key → List Str
  | min => ["MIN ".toList, "MIN\t".toList]
  | k => [k.text]

theorem key_kept {l k : Str} (h : Kept l k) (K : Key) (hp : K.text <+: tab k) : ∃ x ∈ K.texts, x <+: l := by
  by_cases hm : K = .min
  · subst hm
    obtain ⟨r, hr⟩ := hp
    have : ∃ x ∈ Key.min.texts, x <+: k := by
      have h3 : "MIN".toList <+: k := tab_prefix _ k (by decide) ⟨' ' :: r, by rw [← hr]; rfl⟩
      obtain ⟨y, rfl⟩ := h3
      have : tab ("MIN".toList ++ y) = "MIN".toList ++ tab y := by rw [tab, tabs_append]; rfl
      rw [this] at hr
      have hy : ' ' :: r = tab y := by
        have := congrArg (List.drop 3) hr
        exact this
      cases y with
      | nil => cases hy
      | cons c y =>
        by_cases e : c = '\t'
        · subst e; exact ⟨"MIN\t".toList, by simp [Key.texts], ⟨y, rfl⟩⟩
        · have : tab (c :: y) = c :: tab y := by simp [tab, replaceChar, e]
          rw [this] at hy
          injection hy with h1 _
          subst h1
          exact ⟨"MIN ".toList, by simp [Key.texts], ⟨y, rfl⟩⟩
    obtain ⟨x, hx, hp⟩ := this
    refine ⟨x, hx, kept_prefix h ?_ hp⟩
    simp only [Key.texts, List.mem_cons, List.not_mem_nil, or_false] at hx
    rcases hx with rfl | rfl <;> decide
  · have ht : K.texts = [K.text] := by cases K <;> first | rfl | exact absurd rfl hm
    refine ⟨K.text, by simp [ht], kept_prefix h ?_ (tab_prefix _ _ ?_ hp)⟩
    · cases K <;> decide
    · cases K <;> first | decide | exact absurd rfl hm

/-! what the loop gives -/

/-- a line with sections -/
def Key.isSec : Key → Bool
  | val => true | tick => true | _ => false

theorem key_excl {t : Str} {K K' : Key} (h : K.text <+: t) (h' : K'.text <+: t) : K = K' := by
  rcases List.prefix_or_prefix_of_prefix h h' with hp | hp
  · have : K.text.isPrefixOf K'.text = true := List.isPrefixOf_iff_prefix.2 hp
    revert this; cases K <;> cases K' <;> decide
  · have : K'.text.isPrefixOf K.text = true := List.isPrefixOf_iff_prefix.2 hp
    revert this; cases K <;> cases K' <;> decide

/-- what the lines with keys do; `ix` gives their places -/
structure Eff {F : Type} (N : Num F) (L : List Str) (x : Sensor F) (ix : Key → Nat) : Prop where
  nd : x.ndim = 2 ∨ x.ndim = 3
  same : ix .tick = ix .val
  uniq : ∀ (K : Key) (j : Nat) (k : Str), j < 31 → L[j]? = some k → K.text <+: tab k → (K.isSec = true → x.ndim = 3) → j = ix K
  line : ∀ K : Key, ix K < 31 → (K.isSec = true → x.ndim = 3) → ∃ (k : Str) (K' : Key), L[ix K]? = some k ∧ K'.text <+: tab k ∧ (K' = K ∨ (K'.isSec = true ∧ K.isSec = true))
  order : ix .ndim < ix .dim
  e_ndim : ∀ d, turnAt N L (ix .ndim) d = .ok { d with ndim := some (x.ndim : Int) }
  e_dim : ∀ d, d.ndim = some (x.ndim : Int) → turnAt N L (ix .dim) d =
    .ok (if x.ndim = 2 then { d with nSensors := some (x.nSensors : Int), nMajor := some (x.nMajor : Int), nSections := some 1, secs := some .nil }
      else { d with nSensors := some (x.nSensors : Int), nMajor := some (x.nMajor : Int) })
  e_fmt : ∀ d, turnAt N L (ix .fmt) d = .ok { d with double := some x.double }
  e_lab : ∀ d, turnAt N L (ix .lab) d = .ok { d with category := some x.category }
  e_var : ∀ d, turnAt N L (ix .var) d = .ok { d with names := some x.names }
  e_unit : ∀ d, turnAt N L (ix .unit) d = .ok { d with units := some (x.units.map (·.flatMap Part.si)) }
  e_min : (ix .min = 31 ∧ x.start = none) ∨ ∃ y, x.start = some y ∧ ∀ d, turnAt N L (ix .min) d = .ok { d with start := some y }
  e_step : (ix .step = 31 ∧ x.step = none) ∨ ∃ y, x.step = some y ∧ ∀ d, turnAt N L (ix .step) d = .ok { d with step := some y }
  e_sec : x.ndim = 3 → ∀ d, turnAt N L (ix .val) d = .ok { d with secs := some x.secs, nSections := some x.secs.length }
  e_sec2 : x.ndim = 2 → ∀ (j : Nat) (k : Str) (K : Key) (d : Dat F), j < 31 → K.isSec = true → L[j]? = some k → K.text <+: tab k →
    ∃ sc n, turnAt N L j d = .ok { d with secs := sc, nSections := some n }

/-- the state before the turn of index `j` -/
structure Inv {F : Type} (x : Sensor F) (ix : Key → Nat) (j : Nat) (d : Dat F) : Prop where
  ndim : d.ndim = if ix .ndim < j then some (x.ndim : Int) else none
  ns : d.nSensors = if ix .dim < j then some (x.nSensors : Int) else none
  nm : d.nMajor = if ix .dim < j then some (x.nMajor : Int) else none
  double : d.double = if ix .fmt < j then some x.double else none
  category : d.category = if ix .lab < j then some x.category else none
  names : d.names = if ix .var < j then some x.names else none
  units : d.units = if ix .unit < j then some (x.units.map (·.flatMap Part.si)) else none
  start : d.start = if ix .min < j then x.start else none
  step : d.step = if ix .step < j then x.step else none
  secs3 : x.ndim = 3 → d.secs = if ix .val < j then some x.secs else none
  nsec3 : x.ndim = 3 → d.nSections = if ix .val < j then some x.secs.length else none
  nsec2 : x.ndim = 2 → ix .dim < j → d.nSections.isSome = true

theorem inv_step {F : Type} (N : Num F) (L : List Str) (x : Sensor F) (ix : Key → Nat) (E : Eff N L x ix) (j : Nat) (hj : j < 31) (d : Dat F)
    (I : Inv x ix j d) : ∃ d', turnAt N L j d = .ok d' ∧ Inv x ix (j + 1) d' := by
  by_cases hK : ∃ k K, L[j]? = some k ∧ Key.text K <+: tab k
  · obtain ⟨k, K, hk, hp⟩ := hK
    have hne : ∀ K' : Key, (K'.isSec = true → x.ndim = 3) → ¬ (K' = K ∨ (K.isSec = true ∧ K'.isSec = true)) → ix K' ≠ j := by
      intro K' h3 hn e
      obtain ⟨k', K'', h1, h2, h4⟩ := E.line K' (by omega) h3
      rw [e, hk] at h1
      obtain rfl := Option.some.inj h1
      obtain rfl := key_excl hp h2
      rcases h4 with rfl | h4
      · exact hn (.inl rfl)
      · exact hn (.inr h4)
    by_cases hsec : K.isSec = true
    · rcases E.nd with h2 | h3
      · obtain ⟨sc, n, ht⟩ := E.e_sec2 h2 j k K d hj hsec hk hp
        have hlt : ∀ K' : Key, K'.isSec = false → (ix K' < j + 1 ↔ ix K' < j) := fun K' hs => by
          have := hne K' (by simp [hs]) (by rintro (rfl | h) <;> simp_all)
          omega
        have hU : ∀ K' : Key, K'.isSec = false → ∀ {α : Type} (a b : Option α), (if ix K' < j + 1 then a else b) = if ix K' < j then a else b := by
          intro K' hs α a b; simp only [hlt K' hs]
        exact ⟨_, ht, ⟨by rw [hU .ndim rfl]; exact I.ndim,
          by rw [hU .dim rfl]; exact I.ns,
          by rw [hU .dim rfl]; exact I.nm,
          by rw [hU .fmt rfl]; exact I.double,
          by rw [hU .lab rfl]; exact I.category,
          by rw [hU .var rfl]; exact I.names,
          by rw [hU .unit rfl]; exact I.units,
          by rw [hU .min rfl]; exact I.start,
          by rw [hU .step rfl]; exact I.step,
          fun h3 => by omega,
          fun h3 => by omega,
          fun _ _ => rfl⟩⟩
      · have hix : ix .val = j := by
          have := E.uniq K j k hj hk hp fun _ => h3
          rw [this]
          cases K with
          | val => rfl
          | tick => exact E.same.symm
          | _ => cases hsec
        have ht := E.e_sec h3 d
        rw [hix] at ht
        have hlt : ∀ K' : Key, K'.isSec = false → (ix K' < j + 1 ↔ ix K' < j) := fun K' hs => by
          have := hne K' (by simp [hs]) (by rintro (rfl | h) <;> simp_all)
          omega
        have hU : ∀ K' : Key, K'.isSec = false → ∀ {α : Type} (a b : Option α), (if ix K' < j + 1 then a else b) = if ix K' < j then a else b := by
          intro K' hs α a b; simp only [hlt K' hs]
        exact ⟨_, ht, ⟨by rw [hU .ndim rfl]; exact I.ndim,
          by rw [hU .dim rfl]; exact I.ns,
          by rw [hU .dim rfl]; exact I.nm,
          by rw [hU .fmt rfl]; exact I.double,
          by rw [hU .lab rfl]; exact I.category,
          by rw [hU .var rfl]; exact I.names,
          by rw [hU .unit rfl]; exact I.units,
          by rw [hU .min rfl]; exact I.start,
          by rw [hU .step rfl]; exact I.step,
          fun _ => by rw [if_pos (by omega)],
          fun _ => by rw [if_pos (by omega)],
          fun h2 => by omega⟩⟩
    · have hix := E.uniq K j k hj hk hp fun h => absurd h hsec
      have hlt' : ∀ K' : Key, (K'.isSec = true → x.ndim = 3) → K' ≠ K → (ix K' < j + 1 ↔ ix K' < j) := fun K' h3 hn => by
        have := hne K' h3 (by rintro (rfl | h) <;> simp_all)
        omega
      have hU' : ∀ K' : Key, (K'.isSec = true → x.ndim = 3) → K' ≠ K → ∀ {α : Type} (a b : Option α), (if ix K' < j + 1 then a else b) = if ix K' < j then a else b := by
        intro K' h3 hn α a b; simp only [hlt' K' h3 hn]
      have hU : ∀ K' : Key, K'.isSec = false → K' ≠ K → ∀ {α : Type} (a b : Option α), (if ix K' < j + 1 then a else b) = if ix K' < j then a else b :=
        fun K' hs hn => hU' K' (by simp [hs]) hn
      have hlt : ∀ K' : Key, K'.isSec = false → K' ≠ K → (ix K' < j + 1 ↔ ix K' < j) := fun K' hs hn => hlt' K' (by simp [hs]) hn
      cases K with
      | val => exact absurd rfl hsec
      | tick => exact absurd rfl hsec
      | ndim =>
        have ht := E.e_ndim d
        rw [← hix] at ht
        exact ⟨_, ht, ⟨by rw [if_pos (by omega)],
          by rw [hU .dim (by decide) (by decide)]; exact I.ns,
          by rw [hU .dim (by decide) (by decide)]; exact I.nm,
          by rw [hU .fmt (by decide) (by decide)]; exact I.double,
          by rw [hU .lab (by decide) (by decide)]; exact I.category,
          by rw [hU .var (by decide) (by decide)]; exact I.names,
          by rw [hU .unit (by decide) (by decide)]; exact I.units,
          by rw [hU .min (by decide) (by decide)]; exact I.start,
          by rw [hU .step (by decide) (by decide)]; exact I.step,
          fun h3 => by rw [hU' .val (fun _ => h3) (by decide)]; exact I.secs3 h3,
          fun h3 => by rw [hU' .val (fun _ => h3) (by decide)]; exact I.nsec3 h3,
          fun h2 hj => I.nsec2 h2 ((hlt .dim (by decide) (by decide)).1 hj)⟩⟩
      | fmt =>
        have ht := E.e_fmt d
        rw [← hix] at ht
        exact ⟨_, ht, ⟨by rw [hU .ndim (by decide) (by decide)]; exact I.ndim,
          by rw [hU .dim (by decide) (by decide)]; exact I.ns,
          by rw [hU .dim (by decide) (by decide)]; exact I.nm,
          by rw [if_pos (by omega)],
          by rw [hU .lab (by decide) (by decide)]; exact I.category,
          by rw [hU .var (by decide) (by decide)]; exact I.names,
          by rw [hU .unit (by decide) (by decide)]; exact I.units,
          by rw [hU .min (by decide) (by decide)]; exact I.start,
          by rw [hU .step (by decide) (by decide)]; exact I.step,
          fun h3 => by rw [hU' .val (fun _ => h3) (by decide)]; exact I.secs3 h3,
          fun h3 => by rw [hU' .val (fun _ => h3) (by decide)]; exact I.nsec3 h3,
          fun h2 hj => I.nsec2 h2 ((hlt .dim (by decide) (by decide)).1 hj)⟩⟩
      | lab =>
        have ht := E.e_lab d
        rw [← hix] at ht
        exact ⟨_, ht, ⟨by rw [hU .ndim (by decide) (by decide)]; exact I.ndim,
          by rw [hU .dim (by decide) (by decide)]; exact I.ns,
          by rw [hU .dim (by decide) (by decide)]; exact I.nm,
          by rw [hU .fmt (by decide) (by decide)]; exact I.double,
          by rw [if_pos (by omega)],
          by rw [hU .var (by decide) (by decide)]; exact I.names,
          by rw [hU .unit (by decide) (by decide)]; exact I.units,
          by rw [hU .min (by decide) (by decide)]; exact I.start,
          by rw [hU .step (by decide) (by decide)]; exact I.step,
          fun h3 => by rw [hU' .val (fun _ => h3) (by decide)]; exact I.secs3 h3,
          fun h3 => by rw [hU' .val (fun _ => h3) (by decide)]; exact I.nsec3 h3,
          fun h2 hj => I.nsec2 h2 ((hlt .dim (by decide) (by decide)).1 hj)⟩⟩
      | var =>
        have ht := E.e_var d
        rw [← hix] at ht
        exact ⟨_, ht, ⟨by rw [hU .ndim (by decide) (by decide)]; exact I.ndim,
          by rw [hU .dim (by decide) (by decide)]; exact I.ns,
          by rw [hU .dim (by decide) (by decide)]; exact I.nm,
          by rw [hU .fmt (by decide) (by decide)]; exact I.double,
          by rw [hU .lab (by decide) (by decide)]; exact I.category,
          by rw [if_pos (by omega)],
          by rw [hU .unit (by decide) (by decide)]; exact I.units,
          by rw [hU .min (by decide) (by decide)]; exact I.start,
          by rw [hU .step (by decide) (by decide)]; exact I.step,
          fun h3 => by rw [hU' .val (fun _ => h3) (by decide)]; exact I.secs3 h3,
          fun h3 => by rw [hU' .val (fun _ => h3) (by decide)]; exact I.nsec3 h3,
          fun h2 hj => I.nsec2 h2 ((hlt .dim (by decide) (by decide)).1 hj)⟩⟩
      | unit =>
        have ht := E.e_unit d
        rw [← hix] at ht
        exact ⟨_, ht, ⟨by rw [hU .ndim (by decide) (by decide)]; exact I.ndim,
          by rw [hU .dim (by decide) (by decide)]; exact I.ns,
          by rw [hU .dim (by decide) (by decide)]; exact I.nm,
          by rw [hU .fmt (by decide) (by decide)]; exact I.double,
          by rw [hU .lab (by decide) (by decide)]; exact I.category,
          by rw [hU .var (by decide) (by decide)]; exact I.names,
          by rw [if_pos (by omega)],
          by rw [hU .min (by decide) (by decide)]; exact I.start,
          by rw [hU .step (by decide) (by decide)]; exact I.step,
          fun h3 => by rw [hU' .val (fun _ => h3) (by decide)]; exact I.secs3 h3,
          fun h3 => by rw [hU' .val (fun _ => h3) (by decide)]; exact I.nsec3 h3,
          fun h2 hj => I.nsec2 h2 ((hlt .dim (by decide) (by decide)).1 hj)⟩⟩
      | dim =>
        have hn : d.ndim = some (x.ndim : Int) := by
          rw [I.ndim, if_pos]
          rw [hix]; exact E.order
        have ht := E.e_dim d hn
        rw [← hix] at ht
        refine ⟨_, ht, ?_⟩
        by_cases h2 : x.ndim = 2
        · rw [if_pos h2]
          exact ⟨by rw [hU .ndim (by decide) (by decide)]; exact I.ndim,
          by rw [if_pos (by omega)],
          by rw [if_pos (by omega)],
          by rw [hU .fmt (by decide) (by decide)]; exact I.double,
          by rw [hU .lab (by decide) (by decide)]; exact I.category,
          by rw [hU .var (by decide) (by decide)]; exact I.names,
          by rw [hU .unit (by decide) (by decide)]; exact I.units,
          by rw [hU .min (by decide) (by decide)]; exact I.start,
          by rw [hU .step (by decide) (by decide)]; exact I.step,
          fun h3 => by omega,
          fun h3 => by omega,
          fun _ _ => rfl⟩
        · rw [if_neg h2]
          exact ⟨by rw [hU .ndim (by decide) (by decide)]; exact I.ndim,
          by rw [if_pos (by omega)],
          by rw [if_pos (by omega)],
          by rw [hU .fmt (by decide) (by decide)]; exact I.double,
          by rw [hU .lab (by decide) (by decide)]; exact I.category,
          by rw [hU .var (by decide) (by decide)]; exact I.names,
          by rw [hU .unit (by decide) (by decide)]; exact I.units,
          by rw [hU .min (by decide) (by decide)]; exact I.start,
          by rw [hU .step (by decide) (by decide)]; exact I.step,
          fun h3 => by rw [hU' .val (fun _ => h3) (by decide)]; exact I.secs3 h3,
          fun h3 => by rw [hU' .val (fun _ => h3) (by decide)]; exact I.nsec3 h3,
          fun h2' => absurd h2' h2⟩
      | min =>
        rcases E.e_min with ⟨h31, _⟩ | ⟨y, hy, ht⟩
        · omega
        · have ht := ht d
          rw [← hix] at ht
          exact ⟨_, ht, ⟨by rw [hU .ndim (by decide) (by decide)]; exact I.ndim,
          by rw [hU .dim (by decide) (by decide)]; exact I.ns,
          by rw [hU .dim (by decide) (by decide)]; exact I.nm,
          by rw [hU .fmt (by decide) (by decide)]; exact I.double,
          by rw [hU .lab (by decide) (by decide)]; exact I.category,
          by rw [hU .var (by decide) (by decide)]; exact I.names,
          by rw [hU .unit (by decide) (by decide)]; exact I.units,
          by show some _ = _; rw [if_pos (by omega), hy],
          by rw [hU .step (by decide) (by decide)]; exact I.step,
          fun h3 => by rw [hU' .val (fun _ => h3) (by decide)]; exact I.secs3 h3,
          fun h3 => by rw [hU' .val (fun _ => h3) (by decide)]; exact I.nsec3 h3,
          fun h2 hj => I.nsec2 h2 ((hlt .dim (by decide) (by decide)).1 hj)⟩⟩
      | step =>
        rcases E.e_step with ⟨h31, _⟩ | ⟨y, hy, ht⟩
        · omega
        · have ht := ht d
          rw [← hix] at ht
          exact ⟨_, ht, ⟨by rw [hU .ndim (by decide) (by decide)]; exact I.ndim,
          by rw [hU .dim (by decide) (by decide)]; exact I.ns,
          by rw [hU .dim (by decide) (by decide)]; exact I.nm,
          by rw [hU .fmt (by decide) (by decide)]; exact I.double,
          by rw [hU .lab (by decide) (by decide)]; exact I.category,
          by rw [hU .var (by decide) (by decide)]; exact I.names,
          by rw [hU .unit (by decide) (by decide)]; exact I.units,
          by rw [hU .min (by decide) (by decide)]; exact I.start,
          by show some _ = _; rw [if_pos (by omega), hy],
          fun h3 => by rw [hU' .val (fun _ => h3) (by decide)]; exact I.secs3 h3,
          fun h3 => by rw [hU' .val (fun _ => h3) (by decide)]; exact I.nsec3 h3,
          fun h2 hj => I.nsec2 h2 ((hlt .dim (by decide) (by decide)).1 hj)⟩⟩
  · have hlt : ∀ K' : Key, (K'.isSec = true → x.ndim = 3) → (ix K' < j + 1 ↔ ix K' < j) := fun K' h3 => by
      have : ix K' ≠ j := fun e => by
        obtain ⟨k, K'', h1, h2, _⟩ := E.line K' (by omega) h3
        exact hK ⟨k, K'', by rw [← e]; exact h1, h2⟩
      omega
    have hU : ∀ K' : Key, (K'.isSec = true → x.ndim = 3) → ∀ {α : Type} (a b : Option α), (if ix K' < j + 1 then a else b) = if ix K' < j then a else b := by
      intro K' h3 α a b; simp only [hlt K' h3]
    refine ⟨d, ?_, ⟨by rw [hU .ndim (by simp [Key.isSec])]; exact I.ndim,
      by rw [hU .dim (by simp [Key.isSec])]; exact I.ns,
      by rw [hU .dim (by simp [Key.isSec])]; exact I.nm,
      by rw [hU .fmt (by simp [Key.isSec])]; exact I.double,
      by rw [hU .lab (by simp [Key.isSec])]; exact I.category,
      by rw [hU .var (by simp [Key.isSec])]; exact I.names,
      by rw [hU .unit (by simp [Key.isSec])]; exact I.units,
      by rw [hU .min (by simp [Key.isSec])]; exact I.start,
      by rw [hU .step (by simp [Key.isSec])]; exact I.step,
      fun h3 => by rw [hU .val (fun _ => h3)]; exact I.secs3 h3,
      fun h3 => by rw [hU .val (fun _ => h3)]; exact I.nsec3 h3,
      fun h2 hj => I.nsec2 h2 ((hlt .dim (by simp [Key.isSec])).1 hj)⟩⟩
    unfold turnAt
    cases hk : L[j]? with
    | none => rfl
    | some k => exact turn_none N k _ d fun K hp => hK ⟨k, K, hk, hp⟩

theorem inv_all {F : Type} (N : Num F) (L : List Str) (x : Sensor F) (ix : Key → Nat) (E : Eff N L x ix) (j : Nat) (hj : j ≤ 31) :
    ∃ d, turns N j L {} = .ok d ∧ Inv x ix j d := by
  induction j with
  | zero => exact ⟨{}, by cases L <;> rfl, by constructor <;> simp⟩
  | succ j ih =>
    obtain ⟨d, h1, h2⟩ := ih (by omega)
    obtain ⟨d', h3, h4⟩ := inv_step N L x ix E j (by omega) d h2
    exact ⟨d', by rw [turns_succ, h1]; exact h3, h4⟩

/-! from the lines to the loop -/

theorem once_line {s : Str} {ls : List Str} (hs : HasLines s ls) {keys : List Str} {i : Nat} {k r : Str} (h : Once keys ls i k r) :
    ∃ e, Blank e ∧ (Hawc2Sel.keepLines s)[i]? = some (k ++ (r ++ e)) ∧ NextKept ls[i + 1]? (Hawc2Sel.keepLines s)[i + 1]? := by
  rcases keepLines_of hs i with ⟨hn, _⟩ | ⟨a, b, ha, hb, hab⟩
  · rw [h.2.2.1] at hn; cases hn
  · rw [h.2.2.1] at ha
    obtain rfl := Option.some.inj ha
    obtain ⟨e, rfl, he⟩ := hab.ends
    exact ⟨e, he, by rw [hb, List.append_assoc], keepLines_of hs (i + 1)⟩

theorem kept_key {s : Str} {ls : List Str} (hs : HasLines s ls) {j : Nat} {k : Str} (K : Key) (hk : (Hawc2Sel.keepLines s)[j]? = some k)
    (hp : K.text <+: tab k) : ∃ l x, ls[j]? = some l ∧ x ∈ K.texts ∧ x <+: l := by
  rcases keepLines_of hs j with ⟨_, hn⟩ | ⟨a, b, ha, hb, hab⟩
  · rw [hk] at hn; cases hn
  · rw [hk] at hb
    obtain rfl := Option.some.inj hb
    obtain ⟨x, hx, hxa⟩ := key_kept hab K hp
    exact ⟨a, x, ha, hx, hxa⟩

theorem tab_key (k r : Str) : tab (k ++ r) = tab k ++ tab r := tabs_append k r

theorem turnAt_line {F : Type} (N : Num F) (L : List Str) (i : Nat) (d : Dat F) (k : Str) (h : L[i]? = some k) :
    turnAt N L i d = turn N k L[i + 1]? d := by
  unfold turnAt; rw [h]

theorem Says.end {a w e : Str} (h : Says a w) (he : Blank e) : Says (a ++ e) w := by
  obtain ⟨⟨c, r, rfl, hc⟩, hs, ht⟩ := h
  exact ⟨⟨c, r ++ e, rfl, hc⟩, by rw [Hawc2Sel.strip_append_ws _ _ he.ws, hs], ht⟩

theorem noQuote (g : Str) (h : '\'' ∉ g) : replaceChar '\'' [] g = g := by
  induction g with
  | nil => rfl
  | cons c g ih =>
    simp only [List.mem_cons, not_or] at h
    have : replaceChar '\'' [] (c :: g) = c :: replaceChar '\'' [] g := by simp [replaceChar, Ne.symm h.1]
    rw [this, ih h.2]

theorem eff_of {F : Type} (N : Num F) (s : Str) (ls : List Str) (hs : HasLines s ls) (x : Sensor F) (h : Describes N ls x) :
    ∃ ix, Eff N (Hawc2Sel.keepLines s) x ix ∧ (ix .dim < 31 ∧ ix .fmt < 31 ∧ ix .lab < 31 ∧ ix .var < 31 ∧ ix .unit < 31) ∧
      (ix .min < 31 ∨ x.start = none) ∧ (ix .step < 31 ∨ x.step = none) ∧ (x.ndim = 3 → ix .val < 31) := by
  obtain ⟨iN, rN, iD, rD, oN, oD, hND, ⟨wN, hwN, hkN⟩, ⟨wS, hwS, hkS⟩, ⟨wM, hwM, hkM⟩⟩ := h.dims
  obtain ⟨iF, rF, f, c, oF, hF, hFc⟩ := h.format
  obtain ⟨iL, rL, q, oL, hL, hq, hLq⟩ := h.category
  obtain ⟨iV, rV, oV, hV, hVt⟩ := h.names
  obtain ⟨iU, rU, oU, hU, hUt⟩ := h.units
  obtain ⟨iM, hM31, uM, lM, eM⟩ : ∃ iM, (iM < 31 ∨ (iM = 31 ∧ x.start = none)) ∧
      (∀ j l k', j < 31 → ls[j]? = some l → k' ∈ Key.min.texts → k' <+: l → j = iM) ∧
      (iM < 31 → ∃ k r, k ∈ Key.min.texts ∧ ls[iM]? = some (k ++ r)) ∧
      (iM < 31 → ∃ k r w y, Once Key.min.texts ls iM k r ∧ strip r = w ∧ '\t' ∉ w ∧ N.flt w = some y ∧ x.start = some y) := by
    rcases h.start with ⟨h1, h2⟩ | ⟨i, k, r, w, y, ho, h1, h2, h3, h4⟩
    · exact ⟨31, .inr ⟨rfl, h1⟩, fun j l k' hj hl hk hp => absurd hp (h2 j l k' hj hl hk), by omega, by omega⟩
    · exact ⟨i, .inl ho.1, ho.2.2.2, fun _ => ⟨k, r, ho.2.1, ho.2.2.1⟩, fun _ => ⟨k, r, w, y, ho, h1, h2, h3, h4⟩⟩
  obtain ⟨iT, hT31, uT, lT, eT⟩ : ∃ iT, (iT < 31 ∨ (iT = 31 ∧ x.step = none)) ∧
      (∀ j l k', j < 31 → ls[j]? = some l → k' ∈ Key.step.texts → k' <+: l → j = iT) ∧
      (iT < 31 → ∃ r, ls[iT]? = some ("STEP".toList ++ r)) ∧
      (iT < 31 → ∃ r w y, Once Key.step.texts ls iT "STEP".toList r ∧ Says r w ∧ N.flt w = some y ∧ x.step = some y) := by
    rcases h.step with ⟨h1, h2⟩ | ⟨i, r, w, y, ho, h1, h3, h4⟩
    · exact ⟨31, .inr ⟨rfl, h1⟩, fun j l k' hj hl hk hp => absurd hp (h2 j l k' hj hl hk), by omega, by omega⟩
    · exact ⟨i, .inl ho.1, ho.2.2.2, fun _ => ⟨r, ho.2.2.1⟩, fun _ => ⟨r, w, y, ho, h1, h3, h4⟩⟩
  obtain ⟨iA, uA, eA⟩ : ∃ iA, (x.ndim = 3 → iA < 31 ∧ ∀ j l k', j < 31 → ls[j]? = some l → k' ∈ ["AXIVAL".toList, "AXITICK".toList] → k' <+: l → j = iA) ∧
      (x.ndim = 3 → ∃ k r, Once ["AXIVAL".toList, "AXITICK".toList] ls iA k r ∧
        ((k = "AXIVAL".toList ∧ (∃ c a, r = c :: a ∧ isWs c = true) ∧ ∃ l, (words r).mapM N.flt = some l ∧ x.secs = .vals l) ∨
         (k = "AXITICK".toList ∧ ∃ l, Continued "AXISLAB".toList Ticks ls iA r l ∧ x.secs = .ticks l))) := by
    by_cases h3 : x.ndim = 3
    · obtain ⟨i, k, r, ho, hh⟩ := h.secs h3
      exact ⟨i, fun _ => ⟨ho.1, ho.2.2.2⟩, fun _ => ⟨k, r, ho, hh⟩⟩
    · exact ⟨0, fun h => absurd h h3, fun h => absurd h h3⟩
  let ix : Key → Nat := fun K => match K with
    | .ndim => iN | .dim => iD | .fmt => iF | .lab => iL | .val => iA | .tick => iA | .var => iV | .unit => iU | .min => iM | .step => iT
  have pre : ∀ {keys : List Str} {i : Nat} {r : Str} (K : Key), K ≠ .min → Once keys ls i K.text r → ∃ k K', (Hawc2Sel.keepLines s)[i]? = some k ∧ K'.text <+: tab k ∧
      (K' = K ∨ (K'.isSec = true ∧ K.isSec = true)) := by
    intro keys i r K hm ho
    obtain ⟨e, _, hl, _⟩ := once_line hs ho
    refine ⟨_, K, hl, ?_, .inl rfl⟩
    rw [tab_key]
    have : tab K.text = K.text := by cases K <;> first | rfl | exact absurd rfl hm
    rw [this]; exact ⟨_, rfl⟩
  refine ⟨ix, ?_, ⟨oD.1, oF.1, oL.1, oV.1, oU.1⟩, ?_, ?_, fun h3 => (uA h3).1⟩
  · refine ⟨h.ndim, rfl, ?_, ?_, hND, ?_, ?_, ?_, ?_, ?_, ?_, ?_, ?_, ?_, ?_⟩
    · intro K j k hj hk hp h3
      obtain ⟨l, y, hl, hy, hyl⟩ := kept_key hs K hk hp
      cases K with
      | ndim => exact oN.2.2.2 j l y hj hl hy hyl
      | dim => exact oD.2.2.2 j l y hj hl hy hyl
      | fmt => exact oF.2.2.2 j l y hj hl hy hyl
      | lab => exact oL.2.2.2 j l y hj hl hy hyl
      | val => exact (uA (h3 rfl)).2 j l y hj hl (List.mem_cons.2 (.inl (List.mem_singleton.1 hy))) hyl
      | tick => exact (uA (h3 rfl)).2 j l y hj hl (List.mem_cons.2 (.inr hy)) hyl
      | var => exact oV.2.2.2 j l y hj hl hy hyl
      | unit => exact oU.2.2.2 j l y hj hl hy hyl
      | min => exact uM j l y hj hl hy hyl
      | step => exact uT j l y hj hl hy hyl
    · intro K h31 h3
      cases K with
      | ndim => exact pre .ndim (by decide) oN
      | dim => exact pre .dim (by decide) oD
      | fmt => exact pre .fmt (by decide) oF
      | lab => exact pre .lab (by decide) oL
      | val =>
        obtain ⟨k, r, ho, ⟨rfl, _⟩ | ⟨rfl, _⟩⟩ := eA (h3 rfl)
        · exact pre .val (by decide) ho
        · obtain ⟨k, K', h1, h2, h4⟩ := pre .tick (by decide) ho
          exact ⟨k, K', h1, h2, .inr ⟨by rcases h4 with rfl | h4; exacts [rfl, h4.1], rfl⟩⟩
      | tick =>
        obtain ⟨k, r, ho, ⟨rfl, _⟩ | ⟨rfl, _⟩⟩ := eA (h3 rfl)
        · obtain ⟨k, K', h1, h2, h4⟩ := pre .val (by decide) ho
          exact ⟨k, K', h1, h2, .inr ⟨by rcases h4 with rfl | h4; exacts [rfl, h4.1], rfl⟩⟩
        · exact pre .tick (by decide) ho
      | var => exact pre .var (by decide) oV
      | unit => exact pre .unit (by decide) oU
      | min =>
        obtain ⟨k, r, w, y, ho, _⟩ := eM h31
        obtain ⟨e, _, hl, _⟩ := once_line hs ho
        refine ⟨_, .min, hl, ?_, .inl rfl⟩
        rw [tab_key]
        have hk := ho.2.1
        simp only [Key.texts, List.mem_cons, List.not_mem_nil, or_false] at hk
        rcases hk with rfl | rfl <;> exact ⟨_, rfl⟩
      | step =>
        obtain ⟨r, w, y, ho, _⟩ := eT h31
        exact pre .step (by decide) ho
    · intro d
      obtain ⟨e, he, hl, _⟩ := once_line hs oN
      rw [turnAt_line N _ _ d _ hl, turn_ndim N _ d _ _ wN (by rw [words_append_allWs _ _ he.ws]; exact hwN) hkN]
    · intro d hd
      obtain ⟨e, he, hl, _⟩ := once_line hs oD
      rw [turnAt_line N _ _ d _ hl, turn_dim N _ d _ x.ndim h.ndim hd wS wM _ _ (by rw [words_append_allWs _ _ he.ws]; exact hwS) hkS
        (by rw [words_append_allWs _ _ he.ws]; exact hwM) hkM]
    · intro d
      obtain ⟨e, he, hl, _⟩ := once_line hs oF
      rw [turnAt_line N _ _ d _ hl, turn_fmt N _ d _ f c (hF.end he)]
      have : (c == '8') = x.double := by
        cases hx : x.double
        · simp only [beq_eq_false_iff_ne]; intro hc; rw [hFc.2 hc] at hx; cases hx
        · simpa using hFc.1 hx
      rw [this]
    · intro d
      obtain ⟨e, he, hl, _⟩ := once_line hs oL
      rw [turnAt_line N _ _ d _ hl, turn_lab N _ d _ _ (hL.end he).2.1 hL.2.2]
      have : replaceChar '\'' [] (q ++ x.category ++ q) = x.category := by
        rcases hq with rfl | rfl
        · simp [noQuote _ hLq]
        · have hap : ∀ a b : Str, replaceChar '\'' [] (a ++ b) = replaceChar '\'' [] a ++ replaceChar '\'' [] b := fun a b => by simp [replaceChar]
          rw [hap, hap, noQuote _ hLq]
          simp [replaceChar]
      rw [this]
    · intro d
      obtain ⟨e, he, hl, hn⟩ := once_line hs oV
      rw [turnAt_line N _ _ d _ hl]
      exact turn_var N _ d _ _ (shlex_listed (listed_cont _ "VARIAB".toList ⟨by decide, by decide⟩ ls iV rV e _ _ hV hn he hVt))
    · intro d
      obtain ⟨e, he, hl, hn⟩ := once_line hs oU
      rw [turnAt_line N _ _ d _ hl]
      have := shlex_listed (listed_cont _ "VARUNIT".toList ⟨by decide, by decide⟩ ls iU rU e _ _ hU hn he
        (by intro w hw; obtain ⟨u, hu, rfl⟩ := List.mem_map.1 hw; exact (hUt u hu).2)).strip
      refine (turn_unit N _ d _ _ this).trans ?_
      have he' : (x.units.map (·.flatMap Part.text)).map repUnits = x.units.map (·.flatMap Part.si) := by
        rw [List.map_map]
        exact List.map_congr_left fun u hu => repUnits_parts u (hUt u hu).1
      rw [he']
    · rcases hM31 with h31 | h31
      · right
        obtain ⟨k, r, w, y, ho, h1, h2, h3, h4⟩ := eM h31
        refine ⟨y, h4, fun d => ?_⟩
        obtain ⟨e, he, hl, _⟩ := once_line hs ho
        rw [turnAt_line N _ _ d _ hl]
        have hk := ho.2.1
        simp only [Key.texts, List.mem_cons, List.not_mem_nil, or_false] at hk
        exact turn_min N _ d k _ w hk y (by rw [Hawc2Sel.strip_append_ws _ _ he.ws, h1]) h2 h3
      · exact .inl h31
    · rcases hT31 with h31 | h31
      · right
        obtain ⟨r, w, y, ho, h1, h3, h4⟩ := eT h31
        refine ⟨y, h4, fun d => ?_⟩
        obtain ⟨e, he, hl, _⟩ := once_line hs ho
        rw [turnAt_line N _ _ d _ hl]
        exact turn_step N _ d _ w y (h1.end he).2.1 h1.2.2 h3
      · exact .inl h31
    · intro h3 d
      obtain ⟨k, r, ho, ⟨rfl, ⟨c, a, rfl, hc⟩, l, hl, hx⟩ | ⟨rfl, l, hl, hx⟩⟩ := eA h3
      · obtain ⟨e, he, hL', _⟩ := once_line hs ho
        rw [turnAt_line N _ _ d _ hL', hx]
        exact turn_val N _ d c (a ++ e) hc l (by rw [← List.cons_append, words_append_allWs _ _ he.ws]; exact hl)
      · obtain ⟨e, he, hL', hn⟩ := once_line hs ho
        rw [turnAt_line N _ _ d _ hL', hx, turn_tick, ticks_cont ls iA r e l _ hl hn he]
        rfl
    · intro h2 j k K d hj hK hk hp
      obtain ⟨l, y, hl, hy, ⟨r, rfl⟩⟩ := kept_key hs K hk hp
      rcases keepLines_of hs j with ⟨_, hn⟩ | ⟨a, b, ha, hb, hab⟩
      · rw [hk] at hn; cases hn
      · rw [hk] at hb
        obtain rfl := Option.some.inj hb
        rw [hl] at ha
        obtain rfl := Option.some.inj ha
        obtain ⟨e, rfl, he⟩ := hab.ends
        rw [turnAt_line N _ _ d _ hk, List.append_assoc]
        cases K with
        | val =>
          obtain rfl := List.mem_singleton.1 hy
          obtain ⟨c, a, xs, rfl, hc, hxs⟩ := h.axis h2 j r hj hl
          exact ⟨_, _, turn_val N _ d c (a ++ e) hc xs (by rw [← List.cons_append, words_append_allWs _ _ he.ws]; exact hxs)⟩
        | tick =>
          obtain rfl := List.mem_singleton.1 hy
          exact ⟨_, _, turn_tick N _ d _⟩
        | _ => cases hK
  · rcases hM31 with h31 | h31
    · exact .inl h31
    · exact .inr h31.2
  · rcases hT31 with h31 | h31
    · exact .inl h31
    · exact .inr h31.2

/-- a well-formed sensor file is read, and every entry is what the file says -/
theorem readSensor_ok {F : Type} (N : Num F) (s : Str) (ls : List Str) (hs : HasLines s ls) (x : Sensor F) (h : Describes N ls x) :
    ∃ d, readSensor N s = .ok d ∧ d.ndim = some (x.ndim : Int) ∧ d.nSensors = some (x.nSensors : Int) ∧ d.nMajor = some (x.nMajor : Int) ∧
      d.double = some x.double ∧ d.category = some x.category ∧ d.names = some x.names ∧
      d.units = some (x.units.map (·.flatMap Part.si)) ∧ d.start = x.start ∧ d.step = x.step ∧ d.nSections.isSome = true ∧
      (x.ndim = 3 → d.secs = some x.secs ∧ d.nSections = some x.secs.length) := by
  obtain ⟨ix, E, ⟨h1, h2, h3, h4, h5⟩, h6, h7, h8⟩ := eff_of N s ls hs x h
  obtain ⟨d, hd, I⟩ := inv_all N _ x ix E 31 (by omega)
  have hnd : d.ndim = some (x.ndim : Int) := by rw [I.ndim, if_pos (by have := E.order; omega)]
  have hns : d.nSensors = some (x.nSensors : Int) := by rw [I.ns, if_pos h1]
  have hnm : d.nMajor = some (x.nMajor : Int) := by rw [I.nm, if_pos h1]
  have hn : d.names = some x.names := by rw [I.names, if_pos h4]
  have hsec : d.nSections.isSome = true := by
    rcases h.ndim with e | e
    · exact I.nsec2 e h1
    · rw [I.nsec3 e, if_pos (h8 e)]; rfl
  refine ⟨d, ?_, hnd, hns, hnm, by rw [I.double, if_pos h2], by rw [I.category, if_pos h3], hn, by rw [I.units, if_pos h5], ?_, ?_, hsec, ?_⟩
  · obtain ⟨n, hn'⟩ := Option.isSome_iff_exists.1 hsec
    rw [readSensor, hd]
    simp only [bind, Except.bind, hn, hns, hnm, hn']
    rw [if_pos (by rw [h.count])]
  · rw [I.start]
    rcases h6 with e | e
    · rw [if_pos e]
    · rw [e]; simp
  · rw [I.step]
    rcases h7 with e | e
    · rw [if_pos e]
    · rw [e]; simp
  · intro e
    exact ⟨by rw [I.secs3 e, if_pos (h8 e)], by rw [I.nsec3 e, if_pos (h8 e)]⟩

/-! what is refused -/

theorem turn_keys {F : Type} (N : Num F) (l : Str) (nx : Option Str) (d d' : Dat F) (h : turn N l nx d = .ok d') :
    (d'.names = d.names ∨ "VARIAB".toList <+: tab l) ∧ (d'.nSensors = d.nSensors ∨ ("DIMENS".toList <+: tab l ∧ d.ndim ≠ none)) ∧
      (d'.ndim = d.ndim ∨ "NDIMENS".toList <+: tab l) := by
  unfold turn at h
  simp only [bind, Except.bind, ← tab.eq_1] at h
  have sw : ∀ k : Str, startsWith (tab l) k = true → k <+: tab l := fun k hk => List.isPrefixOf_iff_prefix.1 hk
  by_cases h0 : startsWith (tab l) "NDIMENS".toList = true
  · rw [if_pos h0] at h
    cases he : intAt N (words (strip (List.drop 7 (tab l)))) (-1) with
    | error _ => rw [he] at h; cases h
    | ok n => rw [he] at h; cases h; exact ⟨.inl rfl, .inl rfl, .inr (sw _ h0)⟩
  rw [if_neg h0] at h
  by_cases h1 : startsWith (tab l) "DIMENS".toList = true
  · rw [if_pos h1] at h
    cases he : intAt N (words (strip (List.drop 6 (tab l)))) 0 with
    | error _ => rw [he] at h; cases h
    | ok n =>
      rw [he] at h
      cases hd : d.ndim with
      | none => simp only [hd] at h; cases h
      | some nd =>
        simp only [hd] at h
        cases he' : intAt N (words (strip (List.drop 6 (tab l)))) (nd - 1) with
        | error _ => simp only [he'] at h; cases h
        | ok m =>
          simp only [he'] at h
          refine ⟨.inl ?_, .inr ⟨sw _ h1, by simp⟩, .inl ?_⟩
          · by_cases h2 : nd = 2
            · rw [if_pos h2] at h; cases h; rfl
            · rw [if_neg h2] at h; cases h; rfl
          · by_cases h2 : nd = 2
            · rw [if_pos h2] at h; cases h; rfl
            · rw [if_neg h2] at h; cases h; rfl
  rw [if_neg h1] at h
  by_cases h2 : startsWith (tab l) "FORMAT".toList = true
  · rw [if_pos h2] at h
    cases he : (strip (List.drop 7 (tab l))).getLast? with
    | none => rw [he] at h; cases h
    | some n => rw [he] at h; cases h; exact ⟨.inl rfl, .inl rfl, .inl rfl⟩
  rw [if_neg h2] at h
  by_cases h3 : startsWith (tab l) "GENLAB".toList = true
  · rw [if_pos h3] at h
    cases h; exact ⟨.inl rfl, .inl rfl, .inl rfl⟩
  rw [if_neg h3] at h
  by_cases h4 : startsWith (tab l) "AXIVAL".toList = true
  · rw [if_pos h4] at h
    cases he : fltsOf N (words (List.drop 7 (tab l))) with
    | error _ => rw [he] at h; cases h
    | ok n => rw [he] at h; cases h; exact ⟨.inl rfl, .inl rfl, .inl rfl⟩
  rw [if_neg h4] at h
  by_cases h5 : startsWith (tab l) "AXITICK".toList = true
  · rw [if_pos h5] at h
    cases h; exact ⟨.inl rfl, .inl rfl, .inl rfl⟩
  rw [if_neg h5] at h
  by_cases h6 : startsWith (tab l) "VARIAB".toList = true
  · rw [if_pos h6] at h
    cases he : shlex (List.drop 6 (withNext "VARUNIT".toList (tab l) nx)) with
    | error _ => rw [he] at h; cases h
    | ok n => rw [he] at h; cases h; exact ⟨.inr (sw _ h6), .inl rfl, .inl rfl⟩
  rw [if_neg h6] at h
  by_cases h7 : startsWith (tab l) "VARUNIT".toList = true
  · rw [if_pos h7] at h
    cases he : shlex (strip (List.drop 7 (withNext "AXISLAB".toList (tab l) nx))) with
    | error _ => rw [he] at h; cases h
    | ok n => rw [he] at h; cases h; exact ⟨.inl rfl, .inl rfl, .inl rfl⟩
  rw [if_neg h7] at h
  by_cases h8 : startsWith (tab l) "MIN ".toList = true
  · rw [if_pos h8] at h
    cases he : fltOf N (strip (List.drop 3 (tab l))) with
    | error _ => rw [he] at h; cases h
    | ok n => rw [he] at h; cases h; exact ⟨.inl rfl, .inl rfl, .inl rfl⟩
  rw [if_neg h8] at h
  by_cases h9 : startsWith (tab l) "STEP".toList = true
  · rw [if_pos h9] at h
    cases he : fltOf N (strip (List.drop 4 (tab l))) with
    | error _ => rw [he] at h; cases h
    | ok n => rw [he] at h; cases h; exact ⟨.inl rfl, .inl rfl, .inl rfl⟩
  rw [if_neg h9] at h
  cases h; exact ⟨.inl rfl, .inl rfl, .inl rfl⟩

/-- line `j` of the kept lines starts with the key -/
def At (L : List Str) (K : Key) (j : Nat) : Prop := ∃ k, L[j]? = some k ∧ K.text <+: tab k

theorem turns_keys {F : Type} (N : Num F) (L : List Str) (n : Nat) (d : Dat F) (h : turns N n L {} = .ok d) :
    (d.ndim ≠ none → ∃ i, i < n ∧ At L .ndim i) ∧ (d.nSensors ≠ none → ∃ i j, i < j ∧ j < n ∧ At L .ndim i ∧ At L .dim j) ∧
      (d.names ≠ none → ∃ i, i < n ∧ At L .var i) := by
  induction n generalizing d with
  | zero =>
    have : turns N 0 L {} = .ok {} := by cases L <;> rfl
    rw [this] at h; cases h
    exact ⟨fun h => absurd rfl h, fun h => absurd rfl h, fun h => absurd rfl h⟩
  | succ n ih =>
    rw [turns_succ] at h
    cases hn : turns N n L {} with
    | error e => rw [hn] at h; cases h
    | ok d1 =>
      rw [hn] at h
      obtain ⟨i1, i2, i3⟩ := ih d1 hn
      have h' : turnAt N L n d1 = .ok d := h
      unfold turnAt at h'
      cases hk : L[n]? with
      | none =>
        rw [hk] at h'; cases h'
        refine ⟨fun h => ?_, fun h => ?_, fun h => ?_⟩
        · obtain ⟨i, hi, ha⟩ := i1 h; exact ⟨i, by omega, ha⟩
        · obtain ⟨i, j, hij, hj, ha⟩ := i2 h; exact ⟨i, j, hij, by omega, ha⟩
        · obtain ⟨i, hi, ha⟩ := i3 h; exact ⟨i, by omega, ha⟩
      | some k =>
        rw [hk] at h'
        obtain ⟨k1, k2, k3⟩ := turn_keys N k _ d1 d h'
        refine ⟨fun h => ?_, fun h => ?_, fun h => ?_⟩
        · rcases k3 with e | e
          · rw [e] at h; obtain ⟨i, hi, ha⟩ := i1 h; exact ⟨i, by omega, ha⟩
          · exact ⟨n, by omega, k, hk, e⟩
        · rcases k2 with e | ⟨e, hd⟩
          · rw [e] at h; obtain ⟨i, j, hij, hj, ha⟩ := i2 h; exact ⟨i, j, hij, by omega, ha⟩
          · obtain ⟨i, hi, ha⟩ := i1 hd
            exact ⟨i, n, hi, by omega, ha, k, hk, e⟩
        · rcases k1 with e | e
          · rw [e] at h; obtain ⟨i, hi, ha⟩ := i3 h; exact ⟨i, by omega, ha⟩
          · exact ⟨n, by omega, k, hk, e⟩

theorem readSensor_inv {F : Type} (N : Num F) (s : Str) (d : Dat F) (h : readSensor N s = .ok d) :
    turns N 31 (Hawc2Sel.keepLines s) {} = .ok d ∧ ∃ names ns nm nsec, d.names = some names ∧ d.nSensors = some ns ∧ d.nMajor = some nm ∧
      d.nSections = some nsec ∧ (names.length : Int) = ns := by
  rw [readSensor] at h
  cases ht : turns N 31 (Hawc2Sel.keepLines s) {} with
  | error e => rw [ht] at h; cases h
  | ok d' =>
    rw [ht] at h
    simp only [bind, Except.bind] at h
    cases h1 : d'.names with
    | none => simp only [h1] at h; cases h
    | some a => cases h2 : d'.nSensors with
      | none => simp only [h1, h2] at h; cases h
      | some b => cases h3 : d'.nMajor with
        | none => simp only [h1, h2, h3] at h; cases h
        | some c => cases h4 : d'.nSections with
          | none => simp only [h1, h2, h3, h4] at h; cases h
          | some e =>
            simp only [h1, h2, h3, h4] at h
            by_cases hl : (a.length : Int) = b
            · rw [if_pos hl] at h; cases h; exact ⟨rfl, a, b, c, e, h1, h2, h3, h4, hl⟩
            · rw [if_neg hl] at h; cases h

/-! data files -/

theorem fromfile_get {F : Type} (D : Dec F) (dbl : Bool) (b : List UInt8) (n : Nat) (hb : b.length = n * width dbl) :
    fromfile D dbl b = (List.range n).map (sample D dbl b) := by
  cases dbl
  · have : b.length / 4 = n := by simp only [width] at hb; simp at hb; omega
    simp [fromfile, this, sample]
  · have : b.length / 8 = n := by simp only [width] at hb; simp at hb; omega
    simp [fromfile, this, sample]

theorem fromfile_length {F : Type} (D : Dec F) (dbl : Bool) (b : List UInt8) : (fromfile D dbl b).length = b.length / width dbl := by
  cases dbl <;> simp [fromfile, width]

theorem take_drop_range {α : Type} (f : Nat → α) (n a m : Nat) (h : a + m ≤ n) :
    (((List.range n).map f).drop a).take m = (List.range m).map fun i => f (a + i) := by
  apply List.ext_getElem?
  intro i
  by_cases hi : i < m
  · simp [hi, show a + i < n by omega]
  · simp [hi]

/-- what `read_bladed_output` gives, from what the sensor file says -/
theorem readOutput_of {F : Type} (N : Num F) (num : F → Str) (D : Dec F) (timeOnly : Bool) (s : Str) (ls : List Str) (hs : HasLines s ls) (x : Sensor F)
    (h : Describes N ls x) (data : Data F) : ∃ d nsec, readSensor N s = .ok d ∧ d.nMajor = some (x.nMajor : Int) ∧ d.category = some x.category ∧
      d.units = some (x.units.map (·.flatMap Part.si)) ∧ d.start = x.start ∧ d.step = x.step ∧ d.nSections = some nsec ∧
      (x.ndim = 3 → d.secs = some x.secs ∧ nsec = x.secs.length) ∧
      readOutput N num D timeOnly s data = if timeOnly = true ∧ x.step = none then .ok none else
        (readData D x.ndim x.nMajor nsec x.nSensors (some x.double) data).bind fun a => (orgData N num D d x.names a).map some := by
  obtain ⟨d, hd, h1, h2, h3, h4, h5, h6, h7, h8, h9, h10, h11⟩ := readSensor_ok N s ls hs x h
  obtain ⟨nsec, hn⟩ := Option.isSome_iff_exists.1 h10
  refine ⟨d, nsec, hd, h3, h5, h7, h8, h9, hn, fun e => ⟨(h11 e).1, Option.some.inj (hn.symm.trans (h11 e).2)⟩, ?_⟩
  rw [readOutput, hd]
  simp only [bind, Except.bind]
  by_cases ht : timeOnly = true ∧ x.step = none
  · rw [if_pos ht, if_pos (by simp [ht.1, h9, ht.2])]
  · rw [if_neg ht, if_neg (by rw [h9]; simpa using ht)]
    have hsz : ∀ n : Nat, size (n : Int) = .ok n := fun n => by simp [size]
    simp only [h1, h2, h3, h4, h6, hn, hsz]
    cases readData D x.ndim x.nMajor nsec x.nSensors (some x.double) data with
    | error _ => rfl
    | ok a =>
      simp only
      cases orgData N num D d x.names a <;> rfl

/-! one file -/

theorem showUnits_length (l : List (List Part)) : (l.map (·.flatMap Part.si)).length = l.length := by simp

theorem col_map {F : Type} (zero : F) (rows : List (List F)) (j : Nat) : Bladed.col zero rows j = rows.map fun r => (r[j]?).getD zero := rfl

/-- the table of one file that is read -/
theorem one_file {F : Type} (N : Num F) (num : F → Str) (D : Dec F) (time : Nat → F → F → F) (pj : Bool) (f : Files F) (o : Out F) (n : Nat) (u : List Str)
    (cat : Str) (h : readOutput N num D false f.sensor f.data = .ok (some o)) (hn : o.info.nMajor = some (n : Int)) (h0 : 0 < n)
    (hc : o.info.category = some cat) (hu : o.units = some u) (hlen : o.data.len = .ok n) (hrows : (o.data.cols D.zero).1 = n)
    (hu1 : u.length = o.names.length) (hcols : (o.data.cols D.zero).2.length = o.names.length) :
    (∀ dt t0, o.info.step = some dt → o.info.start = some t0 →
      (columnLabel "Time".toList ['s'] :: List.zipWith columnLabel o.names u).Nodup →
      ∃ d, readFiles N num D time pj [f] = .ok [((n : Int), d)] ∧ d.name = cat ∧ frame d = .ok ((columnLabel "Time".toList ['s'], (List.range n).map fun k => time k dt t0) ::
        (List.zipWith columnLabel o.names u).zip (o.data.cols D.zero).2)) ∧
    (o.info.step = none → (List.zipWith columnLabel o.names u).Nodup →
      ∃ d, readFiles N num D time pj [f] = .ok [((n : Int), d)] ∧ d.name = cat ∧ frame d = .ok ((List.zipWith columnLabel o.names u).zip (o.data.cols D.zero).2)) ∧
    (∀ dt, o.info.step = some dt → o.info.start = none → readFiles N num D time pj [f] = .error .key) := by
  have hr : readFiles N num D time pj [f] = addOut D.zero time o (n : Int) [] := by
    show loop D.zero time (decide (([f] : List (Files F)).length = 1)) (([f] : List (Files F)).map fun f =>
      readOutput N num D (pj && !decide (([f] : List (Files F)).length = 1)) f.sensor f.data) [] = _
    have hp' : ∀ g : Files F, (pj && !decide (([g] : List (Files F)).length = 1)) = false := fun _ => by simp
    simp only [List.map_cons, List.map_nil, hp', h]
    rw [loop]
    simp only [hlen]
    obtain ⟨m, rfl⟩ : ∃ m, n = m + 1 := ⟨n - 1, by omega⟩
    simp only [hn, Option.getD_some]
    cases addOut D.zero time o ((m + 1 : Nat) : Int) [] with
    | error _ => rfl
    | ok _ => rfl
  have hz : ∀ a b : List Str, (a.zip b).map (fun nu => nu.1 ++ " [".toList ++ nu.2 ++ "]".toList) = List.zipWith columnLabel a b := by
    intro a b
    rw [List.zip, List.map_zipWith]
    rfl
  refine ⟨fun dt t0 hs ht hnd => ?_, fun hs hnd => ?_, fun dt hs ht => ?_⟩
  · have hset : newSet D.zero time o (n : Int) = .ok ⟨n, ((List.range n).map fun k => time k dt t0) :: (o.data.cols D.zero).2, "Time".toList :: o.names, ['s'] :: u, cat⟩ := by
      rw [newSet]
      simp only [hs, ht, hrows, hu, hc]
      simp [bind, Except.bind]
    rw [hr, addOut, hset]
    refine ⟨_, rfl, rfl, ?_⟩
    rw [frame]
    simp only
    have := Bladed.C39_frame_partial ("Time".toList :: o.names) (['s'] :: u) (((List.range n).map fun k => time k dt t0) :: (o.data.cols D.zero).2)
      (by simp [hu1]) (by simp [hcols]) (by rw [hz]; exact hnd)
    rw [this, hz]
    rfl
  · have hset : newSet D.zero time o (n : Int) = .ok ⟨n, (o.data.cols D.zero).2, o.names, u, cat⟩ := by
      rw [newSet]
      simp only [hs, hrows, hu, hc]
      simp [bind, Except.bind]
    rw [hr, addOut, hset]
    refine ⟨_, rfl, rfl, ?_⟩
    rw [frame]
    simp only
    rw [Bladed.C39_frame_partial _ _ _ hu1 hcols (by rw [hz]; exact hnd), hz]
  · have hset : newSet D.zero time o (n : Int) = .error .key := by
      rw [newSet]
      simp only [hs, ht]
      simp [bind, Except.bind]
    rw [hr, addOut, hset]

theorem range_mul {α : Type} (a b : Nat) (g : Nat → α) :
    (List.range (a * b)).map g = (List.range a).flatMap fun s => (List.range b).map fun c => g (s * b + c) := by
  induction a with
  | zero => simp
  | succ a ih =>
    rw [Nat.succ_mul, List.range_add, List.map_append, ih, List.range_succ, List.flatMap_append]
    simp

theorem zip_flatMap {α : Type} (l : List α) (f g : α → List Str) (h : Str → Str → Str) (hl : ∀ a ∈ l, (f a).length = (g a).length) :
    List.zipWith h (l.flatMap f) (l.flatMap g) = l.flatMap fun a => List.zipWith h (f a) (g a) := by
  induction l with
  | nil => rfl
  | cons a l ih =>
    rw [List.flatMap_cons, List.flatMap_cons, List.zipWith_append (hl a (by simp)), ih fun x hx => hl x (by simp [hx])]
    rfl

theorem zipWith_map_zip (f : Str → Str) (h : Str → Str → Str) (a b : List Str) :
    List.zipWith h ((a.zip b).map fun cu => f cu.1) ((a.zip b).map fun cu => cu.2) = List.zipWith (fun n u => h (f n) u) a b := by
  induction a generalizing b with
  | nil => simp
  | cons x a ih =>
    cases b with
    | nil => simp
    | cons y b => simp [ih]

/-- the table of one file, from what its sensor file says -/
theorem gives_of {F : Type} (N : Num F) (num : F → Str) (D : Dec F) (time : Nat → F → F → F) (pj : Bool) (s : Str) (data : Data F) (x : Sensor F)
    (d : Dat F) (h3 : d.nMajor = some (x.nMajor : Int)) (h5 : d.category = some x.category) (h8 : d.start = x.start) (h9 : d.step = x.step)
    (a : Arr F) (names u : List Str) (ho : readOutput N num D false s data = .ok (some ⟨a, names, some u, d⟩)) (h0 : 0 < x.nMajor)
    (hlen : a.len = .ok x.nMajor) (hrows : (a.cols D.zero).1 = x.nMajor) (hu : u.length = names.length) (hc : (a.cols D.zero).2.length = names.length) :
    Gives N num D time pj ⟨s, data⟩ x (List.zipWith columnLabel names u) (a.cols D.zero).2 := by
  obtain ⟨g1, g2, g3⟩ := one_file N num D time pj ⟨s, data⟩ ⟨a, names, some u, d⟩ x.nMajor u x.category ho h3 h0 h5 rfl hlen hrows hu hc
  exact ⟨fun dt t0 e1 e2 => g1 dt t0 (h9.trans e1) (h8.trans e2), fun e1 => g2 (h9.trans e1), fun dt e1 e2 => g3 dt (h9.trans e1) (h8.trans e2)⟩

theorem gives2 {F : Type} (N : Num F) (num : F → Str) (D : Dec F) (time : Nat → F → F → F) (pj : Bool) (s : Str) (ls : List Str) (hs : HasLines s ls)
    (x : Sensor F) (h : Describes N ls x) (h2 : x.ndim = 2) (h0 : 0 < x.nMajor) (hu : x.units.length = x.names.length) (data : Data F) (a : Arr F)
    (hd : ∀ nsec, readData D x.ndim x.nMajor nsec x.nSensors (some x.double) data = .ok (.inl a)) (hlen : a.len = .ok x.nMajor)
    (hrows : (a.cols D.zero).1 = x.nMajor) (hc : (a.cols D.zero).2.length = x.nSensors) :
    Gives N num D time pj ⟨s, data⟩ x (labels2 x) (a.cols D.zero).2 := by
  obtain ⟨d, nsec, _, h3, h5, h7, h8, h9, _, _, hro⟩ := readOutput_of N num D false s ls hs x h data
  rw [if_neg (by simp), hd] at hro
  exact gives_of N num D time pj s data x d h3 h5 h8 h9 a x.names _
    (by rw [hro]; simp only [Except.bind, orgData, h7]; rfl) h0 hlen hrows (by simp [hu]) (by rw [hc, h.count])

theorem mat_cols {F : Type} (zero : F) (n m : Nat) (h0 : 0 < n) (g : Nat → Nat → F) :
    ((Arr.mat ((List.range n).map fun t => (List.range m).map fun c => g t c)).cols zero) =
      (n, (List.range m).map fun c => (List.range n).map fun t => g t c) := by
  have hh : (((List.range n).map fun t => (List.range m).map fun c => g t c).headD []).length = m := by
    obtain ⟨k, rfl⟩ : ∃ k, n = k + 1 := ⟨n - 1, by omega⟩
    simp [List.range_succ_eq_map]
  rw [Arr.cols, hh]
  simp only [List.length_map, List.length_range]
  refine congrArg _ (List.map_congr_left fun c hc => ?_)
  rw [Bladed.col, List.map_map]
  refine List.map_congr_left fun t _ => ?_
  rw [List.mem_range] at hc
  simp [hc]

theorem reshape2_of {F : Type} (f : Nat → F) (n m : Nat) :
    reshape2 n m ((List.range (n * m)).map f) = .ok ((List.range n).map fun t => (List.range m).map fun c => f (t * m + c)) := by
  rw [reshape2, if_pos (by simp)]
  refine congrArg _ (List.map_congr_left fun t ht => ?_)
  rw [List.mem_range] at ht
  rw [take_drop_range]
  have := Nat.mul_le_mul_right m (show t + 1 ≤ n from ht)
  rw [Nat.add_mul, Nat.one_mul] at this
  exact this

theorem reshape3_of {F : Type} (f : Nat → F) (n k m : Nat) : reshape3 n k m ((List.range (n * k * m)).map f) =
    .ok ((List.range n).map fun t => (List.range k).map fun s => (List.range m).map fun c => f ((t * k + s) * m + c)) := by
  rw [reshape3, Bladed.reshape3, if_pos (by simp)]
  refine congrArg _ (List.map_congr_left fun t ht => List.map_congr_left fun s hs => ?_)
  rw [List.mem_range] at ht hs
  beta_reduce
  rw [take_drop_range]
  have h1 : t * k + s + 1 ≤ n * k := by
    have := Nat.mul_le_mul_right k (show t + 1 ≤ n from ht)
    rw [Nat.add_mul, Nat.one_mul] at this
    omega
  have := Nat.mul_le_mul_right m h1
  rw [Nat.add_mul _ 1, Nat.one_mul] at this
  exact this

theorem secs_list_length {F : Type} (s : Secs F) : s.list.length = s.length := by cases s <;> simp [Secs.list, Secs.length]

theorem orgRow_of {F : Type} (zero : F) (k m : Nat) (chans units : List Str) (h1 : chans.length = m) (h2 : units.length = m) (g : Nat → Nat → F) :
    Bladed.orgRow zero k chans units ((List.range k).map fun s => (List.range m).map fun c => g s c) =
      (List.range (k * m)).map fun j => g (j / m) (j % m) := by
  have hz : (chans.zip units).length = m := by simp [h1, h2]
  rw [Bladed.orgRow, hz, range_mul]
  have e : ((List.range k).flatMap fun isec => (List.range m).map fun ichan =>
      ((((List.range k).map fun s => (List.range m).map fun c => g s c)[isec]?.getD [])[ichan]?).getD zero) =
      (List.range k).flatMap fun s => (List.range m).map fun c => g ((s * m + c) / m) ((s * m + c) % m) := by
    refine List.flatMap_congr fun s hs => List.map_congr_left fun c hc => ?_
    rw [List.mem_range] at hs hc
    have hd : (s * m + c) / m = s := by
      rw [Nat.add_comm, Nat.add_mul_div_right _ _ (by omega), Nat.div_eq_of_lt hc, Nat.zero_add]
    have hm : (s * m + c) % m = c := by rw [Nat.add_comm, Nat.add_mul_mod_self_right, Nat.mod_eq_of_lt hc]
    rw [hd, hm]
    simp [hs, hc]
  simp only [e]
  have hl : ((List.range k).flatMap fun s => (List.range m).map fun c => g ((s * m + c) / m) ((s * m + c) % m)).length = k * m := by
    rw [← range_mul k m fun j => g (j / m) (j % m)]; simp
  rw [hl, h1]
  simp

theorem gives3 {F : Type} (N : Num F) (num : F → Str) (D : Dec F) (time : Nat → F → F → F) (pj : Bool) (s : Str) (ls : List Str) (hs : HasLines s ls)
    (x : Sensor F) (h : Describes N ls x) (h3d : x.ndim = 3) (h0 : 0 < x.nMajor) (hu : x.units.length = x.names.length) (data : Data F)
    (g : Nat → Nat → Nat → F)
    (hd : readData D x.ndim x.nMajor x.secs.length x.nSensors (some x.double) data = .ok (.inr
      ((List.range x.nMajor).map fun t => (List.range x.secs.length).map fun s => (List.range x.nSensors).map fun c => g t s c))) :
    Gives N num D time pj ⟨s, data⟩ x (labels3 x (x.secs.list.map (secLabel N num)))
      ((List.range x.secs.length).flatMap fun s => (List.range x.nSensors).map fun c => (List.range x.nMajor).map fun t => g t s c) := by
  obtain ⟨d, nsec, _, h3, h5, h7, h8, h9, _, hsec, hro⟩ := readOutput_of N num D false s ls hs x h data
  obtain ⟨hs1, rfl⟩ := hsec h3d
  rw [if_neg (by simp), hd] at hro
  have hrows : (((List.range x.nMajor).map fun t => (List.range x.secs.length).map fun s => (List.range x.nSensors).map fun c => g t s c).map
      (Bladed.orgRow D.zero x.secs.length x.names (x.units.map (·.flatMap Part.si)))) =
      (List.range x.nMajor).map fun t => (List.range (x.secs.length * x.nSensors)).map fun j => g t (j / x.nSensors) (j % x.nSensors) := by
    rw [List.map_map]
    refine List.map_congr_left fun t _ => ?_
    exact orgRow_of D.zero x.secs.length x.nSensors x.names _ h.count (by simp [hu, h.count]) (g t)
  have hcols := mat_cols D.zero x.nMajor (x.secs.length * x.nSensors) h0 fun t j => g t (j / x.nSensors) (j % x.nSensors)
  have hun : (x.units.map (·.flatMap Part.si)).length = x.names.length := by simp [hu]
  have hzl : (x.names.zip (x.units.map (·.flatMap Part.si))).length = x.nSensors := by rw [List.length_zip, hun, h.count]; simp
  have hfl : ∀ f : F ⊕ Str → List Str, (∀ t, (f t).length = x.nSensors) → (x.secs.list.flatMap f).length = x.secs.length * x.nSensors := by
    intro f hf
    rw [List.length_flatMap, ← secs_list_length]
    induction x.secs.list with
    | nil => simp
    | cons t l ih => simp [hf, Nat.add_mul, Nat.add_comm]
  have key := gives_of N num D time pj s data x d h3 h5 h8 h9
    (.mat ((List.range x.nMajor).map fun t => (List.range (x.secs.length * x.nSensors)).map fun j => g t (j / x.nSensors) (j % x.nSensors)))
    (Bladed.orgNames (secLabel N num) x.secs.list x.names (x.units.map (·.flatMap Part.si)))
    (Bladed.orgUnits x.secs.list x.names (x.units.map (·.flatMap Part.si)))
    (by
      rw [hro]
      simp only [Except.bind, orgData, hs1, h7, Option.getD_some]
      rw [if_neg (by simp)]
      simp only [Bladed.orgData, secs_list_length, hrows]
      rfl)
    h0 (by simp [Arr.len]) (by rw [hcols]) (by
      rw [Bladed.orgUnits, Bladed.orgNames, hfl _ fun t => by rw [List.length_map, hzl], hfl _ fun t => by rw [List.length_map, hzl]])
    (by rw [hcols, Bladed.orgNames, hfl _ fun t => by rw [List.length_map, hzl]]; simp)
  have e1 : List.zipWith columnLabel (Bladed.orgNames (secLabel N num) x.secs.list x.names (x.units.map (·.flatMap Part.si)))
      (Bladed.orgUnits x.secs.list x.names (x.units.map (·.flatMap Part.si))) = labels3 x (x.secs.list.map (secLabel N num)) := by
    rw [Bladed.orgNames, Bladed.orgUnits, zip_flatMap _ _ _ _ (by simp), labels3, List.flatMap_map]
    refine List.flatMap_congr fun t _ => ?_
    exact zipWith_map_zip (fun n => secLabel N num t ++ '-' :: n) columnLabel _ _
  have e2 : (List.range (x.secs.length * x.nSensors)).map (fun j => (List.range x.nMajor).map fun t => g t (j / x.nSensors) (j % x.nSensors)) =
      (List.range x.secs.length).flatMap fun s => (List.range x.nSensors).map fun c => (List.range x.nMajor).map fun t => g t s c := by
    rw [range_mul]
    refine List.flatMap_congr fun s hs => List.map_congr_left fun c hc => ?_
    rw [List.mem_range] at hs hc
    have hd : (s * x.nSensors + c) / x.nSensors = s := by
      rw [Nat.add_comm, Nat.add_mul_div_right _ _ (by omega), Nat.div_eq_of_lt hc, Nat.zero_add]
    have hm : (s * x.nSensors + c) % x.nSensors = c := by rw [Nat.add_comm, Nat.add_mul_mod_self_right, Nat.mod_eq_of_lt hc]
    rw [hd, hm]
  rw [e1, hcols, e2] at key
  exact key

theorem good_output {F : Type} (N : Num F) (num : F → Str) (D : Dec F) (b : Bool) (n : Nat) (r : Result F) (h0 : 0 < n) (h : r.Good N n) :
    ∃ o, readOutput N num D b r.files.sensor r.files.data = .ok (some o) ∧ o.data.len = .ok n ∧
      o.data.cols D.zero = (n, (List.range r.sensor.nSensors).map (column2 D r.sensor r.bytes)) ∧ o.names = r.sensor.names ∧
      o.units = some (r.sensor.units.map (·.flatMap Part.si)) ∧ o.info.nMajor = some (n : Int) ∧ o.info.step = r.sensor.step ∧
      o.info.start = r.sensor.start ∧ o.info.category = some r.sensor.category := by
  obtain ⟨hs, hd, h2, rfl, hu, hst, hb⟩ := h
  obtain ⟨d, nsec, _, h3, h5, h7, h8, h9, _, _, hro⟩ := readOutput_of N num D b r.text r.lines hs r.sensor hd (.binary r.bytes)
  rw [if_neg (fun e => hst e.2)] at hro
  have hc := mat_cols D.zero r.sensor.nMajor r.sensor.nSensors h0 fun t c => sample D r.sensor.double r.bytes (t * r.sensor.nSensors + c)
  have hrd : readData D r.sensor.ndim r.sensor.nMajor nsec r.sensor.nSensors (some r.sensor.double) (.binary r.bytes) = .ok (.inl (.mat
      ((List.range r.sensor.nMajor).map fun t => (List.range r.sensor.nSensors).map fun c => sample D r.sensor.double r.bytes (t * r.sensor.nSensors + c)))) := by
    simp only [readData, fromfile_get D _ _ _ hb, h2, reshape2_of]
    rfl
  rw [hrd] at hro
  refine ⟨⟨.mat ((List.range r.sensor.nMajor).map fun t => (List.range r.sensor.nSensors).map fun c =>
    sample D r.sensor.double r.bytes (t * r.sensor.nSensors + c)), r.sensor.names, d.units, d⟩, ?_, by simp [Arr.len], hc, rfl, h7, h3, h9, h8, h5⟩
  exact hro

theorem loop_more {F : Type} (N : Num F) (num : F → Str) (D : Dec F) (time : Nat → F → F → F) (b : Bool) (n : Nat) (h0 : 0 < n) (rs : List (Result F))
    (h : ∀ r ∈ rs, r.Good N n) (d : DSet F) (hd : d.n = n) :
    loop D.zero time false (rs.map fun r => readOutput N num D b r.files.sensor r.files.data) [((n : Int), d)] =
      .ok [((n : Int), ⟨n, d.cols ++ rs.flatMap (fun r => (List.range r.sensor.nSensors).map (column2 D r.sensor r.bytes)),
        d.sensors ++ rs.flatMap (fun r => r.sensor.names), d.units ++ rs.flatMap (fun r => r.sensor.units.map (·.flatMap Part.si)),
        if rs = [] then d.name else "Misc_".toList ++ FastLine.showInt (n : Int)⟩)] := by
  induction rs generalizing d with
  | nil => obtain ⟨dn, a, b, c, e⟩ := d; subst hd; simp [loop]
  | cons r rs ih =>
    obtain ⟨o, h1, h2, h3, h4, h5, h6, _, _, _⟩ := good_output N num D b n r h0 (h r (by simp))
    have hadd : addOut D.zero time o (n : Int) [((n : Int), d)] = .ok [((n : Int), ⟨n,
        d.cols ++ (List.range r.sensor.nSensors).map (column2 D r.sensor r.bytes), d.sensors ++ r.sensor.names,
        d.units ++ r.sensor.units.map (·.flatMap Part.si), "Misc_".toList ++ FastLine.showInt (n : Int)⟩)] := by
      rw [addOut, if_pos rfl]
      simp only [h3, hd, h4, h5, if_true]
    have hstep : loop D.zero time false ((r :: rs).map fun r => readOutput N num D b r.files.sensor r.files.data) [((n : Int), d)] =
        loop D.zero time false (rs.map fun r => readOutput N num D b r.files.sensor r.files.data) [((n : Int), ⟨n,
          d.cols ++ (List.range r.sensor.nSensors).map (column2 D r.sensor r.bytes), d.sensors ++ r.sensor.names,
          d.units ++ r.sensor.units.map (·.flatMap Part.si), "Misc_".toList ++ FastLine.showInt (n : Int)⟩)] := by
      obtain ⟨m, rfl⟩ : ∃ m, n = m + 1 := ⟨n - 1, by omega⟩
      rw [List.map_cons, h1, loop]
      simp only [h2, h6, Option.getD_some, hadd]
    rw [hstep, ih (fun r hr => h r (by simp [hr])) _ rfl]
    simp

theorem table_zip {F : Type} (D : Dec F) (N : Num F) (n : Nat) (rs : List (Result F)) (h : ∀ r ∈ rs, r.Good N n) :
    (rs.flatMap fun r => labels2 r.sensor).zip (rs.flatMap fun r => (List.range r.sensor.nSensors).map (column2 D r.sensor r.bytes)) =
      rs.flatMap (Result.table D) := by
  induction rs with
  | nil => rfl
  | cons r rs ih =>
    obtain ⟨_, hd, _, _, hu, _, _⟩ := h r (by simp)
    rw [List.flatMap_cons, List.flatMap_cons, List.zip_append (by simp [labels2, hu, hd.count]), ih fun x hx => h x (by simp [hx])]
    rfl

theorem merge_ok {F : Type} (N : Num F) (num : F → Str) (D : Dec F) (time : Nat → F → F → F) (pj : Bool) (n : Nat) (h0 : 0 < n) (r r' : Result F)
    (rs : List (Result F)) (h : ∀ x ∈ r :: r' :: rs, x.Good N n) (dt t0 : F) (hdt : r.sensor.step = some dt) (ht : r.sensor.start = some t0)
    (hnd : (columnLabel "Time".toList ['s'] :: (r :: r' :: rs).flatMap (fun x => labels2 x.sensor)).Nodup) :
    ∃ d, readFiles N num D time pj ((r :: r' :: rs).map Result.files) = .ok [((n : Int), d)] ∧ d.name = "Misc_".toList ++ FastLine.showInt (n : Int) ∧
      frame d = .ok ((columnLabel "Time".toList ['s'], (List.range n).map fun k => time k dt t0) :: (r :: r' :: rs).flatMap (Result.table D)) := by
  obtain ⟨o, h1, h2, h3, h4, h5, h6, h7, h8, h9⟩ := good_output N num D pj n r h0 (h r (by simp))
  have hset : newSet D.zero time o (n : Int) = .ok ⟨n, ((List.range n).map fun k => time k dt t0) ::
      (List.range r.sensor.nSensors).map (column2 D r.sensor r.bytes), "Time".toList :: r.sensor.names,
      ['s'] :: r.sensor.units.map (·.flatMap Part.si), r.sensor.category⟩ := by
    rw [newSet]
    simp only [h7, h8, h3, h4, h5, h9, hdt, ht]
    simp [bind, Except.bind]
  have hl : readFiles N num D time pj ((r :: r' :: rs).map Result.files) =
      loop D.zero time false ((r' :: rs).map fun r => readOutput N num D pj r.files.sensor r.files.data) [((n : Int), ⟨n,
        ((List.range n).map fun k => time k dt t0) :: (List.range r.sensor.nSensors).map (column2 D r.sensor r.bytes),
        "Time".toList :: r.sensor.names, ['s'] :: r.sensor.units.map (·.flatMap Part.si), r.sensor.category⟩)] := by
    have hno : decide (((r :: r' :: rs).map Result.files).length = 1) = false := by simp
    have e : readFiles N num D time pj ((r :: r' :: rs).map Result.files) =
        loop D.zero time (decide (((r :: r' :: rs).map Result.files).length = 1)) (((r :: r' :: rs).map Result.files).map fun f =>
          readOutput N num D (pj && !decide (((r :: r' :: rs).map Result.files).length = 1)) f.sensor f.data) [] := rfl
    rw [e, hno, Bool.not_false, Bool.and_true, List.map_map]
    have e2 : (r :: r' :: rs).map ((fun f : Files F => readOutput N num D pj f.sensor f.data) ∘ Result.files) =
      readOutput N num D pj r.files.sensor r.files.data :: (r' :: rs).map fun r => readOutput N num D pj r.files.sensor r.files.data := rfl
    obtain ⟨m, rfl⟩ : ∃ m, n = m + 1 := ⟨n - 1, by omega⟩
    rw [e2, h1, loop]
    simp only [h2, h6, Option.getD_some, addOut, hset]
  rw [hl, loop_more N num D time pj n h0 (r' :: rs) (fun x hx => h x (by simp only [List.mem_cons] at hx ⊢; tauto)) _ rfl]
  refine ⟨_, rfl, rfl, ?_⟩
  rw [frame]
  simp only
  have hz : ∀ a b : List Str, (a.zip b).map (fun nu => nu.1 ++ " [".toList ++ nu.2 ++ "]".toList) = List.zipWith columnLabel a b := by
    intro a b
    rw [List.zip, List.map_zipWith]
    rfl
  have hcount : ∀ l : List (Result F), (∀ x ∈ l, x.Good N n) →
      (l.flatMap fun r => r.sensor.units.map (·.flatMap Part.si)).length = (l.flatMap fun r => r.sensor.names).length ∧
      (l.flatMap fun r => (List.range r.sensor.nSensors).map (column2 D r.sensor r.bytes)).length = (l.flatMap fun r => r.sensor.names).length := by
    intro l hl
    induction l with
    | nil => exact ⟨rfl, rfl⟩
    | cons x l ih =>
      obtain ⟨_, hd, _, _, hu, _, _⟩ := hl x (by simp)
      obtain ⟨i1, i2⟩ := ih fun y hy => hl y (by simp [hy])
      simp only [List.flatMap_cons, List.length_append, i1, i2, List.length_map, List.length_range, hu, hd.count, and_self]
  obtain ⟨c1, c2⟩ := hcount (r :: r' :: rs) h
  have hlab : List.zipWith columnLabel ((r :: r' :: rs).flatMap fun r => r.sensor.names)
      ((r :: r' :: rs).flatMap fun r => r.sensor.units.map (·.flatMap Part.si)) = (r :: r' :: rs).flatMap fun x => labels2 x.sensor := by
    rw [zip_flatMap]
    · rfl
    · intro x hx
      obtain ⟨_, _, _, _, hu, _, _⟩ := h x hx
      simp [hu]
  have key := Bladed.C39_frame_partial ("Time".toList :: (r :: r' :: rs).flatMap fun r => r.sensor.names)
    (['s'] :: (r :: r' :: rs).flatMap fun r => r.sensor.units.map (·.flatMap Part.si))
    (((List.range n).map fun k => time k dt t0) :: (r :: r' :: rs).flatMap fun r => (List.range r.sensor.nSensors).map (column2 D r.sensor r.bytes))
    (by simp only [List.length_cons, c1]) (by simp only [List.length_cons, c2]) (by rw [hz, List.zipWith_cons_cons, hlab]; exact hnd)
  rw [hz, List.zipWith_cons_cons, hlab, List.zip_cons_cons, table_zip D N n _ h] at key
  simp only [List.cons_append, List.flatMap_cons] at key ⊢
  rw [key]

theorem replaceChar_back (a b : Char) (s : Str) (h : a ∉ s) : replaceChar a [b] (replaceChar b [a] s) = s := by
  induction s with
  | nil => rfl
  | cons c s ih =>
    simp only [List.mem_cons, not_or] at h
    have e := ih h.2
    by_cases hc : c = b
    · simp only [replaceChar, List.flatMap_cons, List.flatMap_append] at e ⊢
      rw [e]; simp [hc]
    · simp only [replaceChar, List.flatMap_cons, List.flatMap_append] at e ⊢
      rw [e]; simp [hc, Ne.symm h.1]

end Verif.BladedRead
