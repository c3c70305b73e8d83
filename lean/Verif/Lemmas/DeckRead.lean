import Verif.Spec.DeckRead
import Verif.Lemmas.Path
import Mathlib.Tactic
/-!
# Lemmas on a FAST input deck
-/
namespace Verif.DeckRead
open Verif.Py

/-- the kind under which a file is read -/
def readKind : Slot → Str
  | .sd => "HD".toList
  | s => kindOf s

theorem bind_ok {α β ε : Type} (x : Except ε α) (f : α → Except ε β) (b : β) (h : x.bind f = .ok b) : ∃ a, x = .ok a ∧ f a = .ok b := by
  cases x with
  | error e => cases h
  | ok a => exact ⟨a, rfl, h⟩

theorem ok_bind {α β ε : Type} (a : α) (f : α → Except ε β) : ((Except.ok a : Except ε α) >>= f) = f a := rfl

theorem getStr_ok (f : File) (key : String) (s : Str) (h : getStr f key = .ok s) : f.get key = some (.str s) := by
  unfold getStr at h
  split at h
  · rename_i e
    cases h
    exact e
  · cases h
  · cases h

/-- nothing but `inputfiles` changes -/
structure Quiet (fs : FS) (d d' : Deck) : Prop where
  filename : d'.filename = d.filename
  readlist : d'.readlist = d.readlist
  vt : d'.vt = d.vt
  af : d'.af = d.af
  ac : d'.ac = d.ac
  files : ∀ k q, d'.inputfiles k = some q → d.inputfiles k = some q ∨ k ∈ d.readlist ∧ ∃ f, fs q = .ok f

theorem readAs_ok (fs : FS) (d d' : Deck) (rel kind : Str) (f : Option File) (h : readAs fs d rel kind = .ok (d', f)) :
    Quiet fs d d' ∧ f = atPath fs d.readlist d.filename rel kind := by
  unfold readAs at h
  unfold atPath
  have hu : lower (basename (unquote rel)) ∈ unusedNames ↔ lower (basename (unquote rel)) ∈ [['u', 'n', 'u', 's', 'e', 'd'], ['n', 'a', 'n'], ['n', 'a'], ['n', 'o', 'n', 'e']] := Iff.rfl
  by_cases h1 : kind ∈ d.readlist
  · rw [if_neg (by simpa using h1)] at h
    by_cases h2 : lower (basename (unquote rel)) ∈ unusedNames
    · rw [if_pos h2] at h
      cases h
      rw [if_neg (by rw [not_and, not_not]; exact fun _ => hu.1 h2)]
      exact ⟨⟨rfl, rfl, rfl, rfl, rfl, fun _ _ h => .inl h⟩, rfl⟩
    · rw [if_neg h2] at h
      rw [if_pos ⟨h1, fun hc => h2 (hu.2 hc)⟩]
      cases hf : fs (pjoin (dirname d.filename) (unquote rel)) with
      | ok g =>
        rw [hf] at h
        cases h
        refine ⟨⟨rfl, rfl, rfl, rfl, rfl, fun k q hq => ?_⟩, rfl⟩
        simp only at hq
        split at hq
        · rename_i hk
          cases hq
          exact .inr ⟨hk ▸ h1, g, hf⟩
        · exact .inl hq
      | missing =>
        rw [hf] at h
        cases h
        exact ⟨⟨rfl, rfl, rfl, rfl, rfl, fun _ _ h => .inl h⟩, rfl⟩
      | bad =>
        rw [hf] at h
        cases h
  · rw [if_pos h1] at h
    cases h
    rw [if_neg (fun hc => h1 hc.1)]
    exact ⟨⟨rfl, rfl, rfl, rfl, rfl, fun _ _ h => .inl h⟩, rfl⟩

theorem load_ok (fs : FS) (d d' : Deck) (slot : Slot) (rel kind : Str) (h : load fs d slot rel kind = .ok d') :
    d'.filename = d.filename ∧ d'.readlist = d.readlist ∧ d'.af = d.af ∧ d'.ac = d.ac ∧
    (∀ k q, d'.inputfiles k = some q → d.inputfiles k = some q ∨ k ∈ d.readlist ∧ ∃ f, fs q = .ok f) ∧
    d'.vt = fun k => if k = slot then atPath fs d.readlist d.filename rel kind else d.vt k := by
  obtain ⟨⟨d1, f⟩, h1, h2⟩ := bind_ok _ _ _ h
  obtain ⟨q, hf⟩ := readAs_ok fs d d1 rel kind f h1
  cases h2
  refine ⟨q.filename, q.readlist, q.af, q.ac, q.files, ?_⟩
  simp only [q.vt, hf]

/-- the deck keeps its name, what it reads and all files but those of some slots -/
structure Keeps (fs : FS) (l : List Slot) (d d' : Deck) : Prop where
  filename : d'.filename = d.filename
  readlist : d'.readlist = d.readlist
  vt : ∀ k, k ∉ l → d'.vt k = d.vt k
  files : ∀ k q, d'.inputfiles k = some q → d.inputfiles k = some q ∨ k ∈ d.readlist ∧ ∃ f, fs q = .ok f
  asked : ∀ s, d'.vt s = d.vt s ∨ d'.vt s = none ∨ readKind s ∈ d.readlist

theorem Keeps.refl (fs : FS) (l : List Slot) (d : Deck) : Keeps fs l d d := ⟨rfl, rfl, fun _ _ => rfl, fun _ _ h => .inl h, fun _ => .inl rfl⟩

theorem Keeps.trans {fs : FS} {l m : List Slot} {a b c : Deck} (h : Keeps fs l a b) (h' : Keeps fs m b c) : Keeps fs (l ++ m) a c := by
  refine ⟨h'.filename.trans h.filename, h'.readlist.trans h.readlist, fun k hk => ?_, fun k q hq => ?_, fun s => ?_⟩
  · rw [List.mem_append, not_or] at hk
    rw [h'.vt k hk.2, h.vt k hk.1]
  · rcases h'.files k q hq with hq | hq
    · exact h.files k q hq
    · exact .inr (h.readlist ▸ hq)
  · rcases h'.asked s with e | e | e
    · rw [e]
      exact h.asked s
    · exact .inr (.inl e)
    · exact .inr (.inr (h.readlist ▸ e))

theorem atPath_none (fs : FS) (kinds : List Str) (main rel kind : Str) (h : kind ∉ kinds) : atPath fs kinds main rel kind = none :=
  if_neg (fun hc => h hc.1)

theorem load_keeps (fs : FS) (d d' : Deck) (slot : Slot) (rel : Str) (h : load fs d slot rel (readKind slot) = .ok d') :
    Keeps fs [slot] d d' ∧ d'.vt slot = atPath fs d.readlist d.filename rel (readKind slot) := by
  obtain ⟨h1, h2, _, _, hi, h3⟩ := load_ok fs d d' slot rel _ h
  refine ⟨⟨h1, h2, fun k hk => ?_, hi, fun s => ?_⟩, ?_⟩
  · rw [h3]
    simp only [List.mem_singleton] at hk
    exact if_neg hk
  · rw [h3]
    by_cases hs : s = slot
    · subst hs
      right
      by_cases hm : readKind s ∈ d.readlist
      · exact .inr hm
      · left
        simp only [if_true]
        exact atPath_none _ _ _ _ _ hm
    · left
      simp only [if_neg hs]
  · rw [h3]
    exact if_pos rfl

theorem positive_ok (f : File) (key : String) (b : Bool) (h : positive f key = .ok b) : (b = true ↔ Flag f key (0 < ·)) := by
  unfold positive at h
  unfold Flag
  split at h
  · rename_i n e
    cases h
    simp [e]
  · cases h
  · cases h

theorem equals_ok (f : File) (key : String) (n : Int) (b : Bool) (h : equals f key n = .ok b) : (b = true ↔ Flag f key (· = n)) := by
  unfold equals at h
  unfold Flag
  split at h
  · rename_i v e
    cases h
    simp [e]
  · cases h

theorem stepIf_ok (fs : FS) (main : File) (cond : Except Err Bool) (on : Prop) (hon : ∀ b, cond = .ok b → (b = true ↔ on)) (slot : Slot) (ref kind : String) (hkind : kind.toList = readKind slot) (d d' : Deck)
    (h : stepIf fs main cond slot ref kind d = .ok d') : Keeps fs [slot] d d' ∧ Module fs d d' main on slot ref kind := by
  obtain ⟨b, hb, h⟩ := bind_ok _ _ _ h
  have hb := hon b hb
  cases b with
  | true =>
    simp only [if_true] at h
    obtain ⟨rel, hr, h⟩ := bind_ok _ _ _ h
    rw [hkind] at h
    obtain ⟨hk, hv⟩ := load_keeps fs d d' slot rel h
    refine ⟨hk, fun _ => ⟨rel, getStr_ok _ _ _ hr, ?_⟩, fun hn => absurd (hb.1 rfl) hn⟩
    rw [hk.readlist, hk.filename, hkind]
    exact hv
  | false =>
    cases h
    exact ⟨Keeps.refl fs _ d, fun ho => absurd (hb.2 ho) (by simp), fun _ => rfl⟩

/-- a module does not change by steps that keep it -/
theorem Module.keep {fs : FS} {d0 d d' : Deck} {main : File} {on : Prop} {slot : Slot} {ref kind : String} {l : List Slot} (h : Module fs d0 d main on slot ref kind)
    (hk : Keeps fs l d d') (hs : slot ∉ l) : Module fs d0 d' main on slot ref kind := by
  refine ⟨fun ho => ?_, fun hn => ?_⟩
  · obtain ⟨rel, h1, h2⟩ := h.1 ho
    exact ⟨rel, h1, by rw [hk.vt _ hs, h2, hk.readlist, hk.filename]⟩
  · rw [hk.vt _ hs, h.2 hn]

theorem Module.from {fs : FS} {d0 d1 d : Deck} {main : File} {on : Prop} {slot : Slot} {ref kind : String} {l : List Slot} (h : Module fs d1 d main on slot ref kind)
    (hk : Keeps fs l d0 d1) (hs : slot ∉ l) : Module fs d0 d main on slot ref kind :=
  ⟨h.1, fun hn => by rw [h.2 hn, hk.vt _ hs]⟩

theorem Keeps.of_quiet {fs : FS} {d d' e : Deck} (h : Quiet fs d d') (h1 : e.filename = d'.filename) (h2 : e.readlist = d'.readlist) (h3 : e.vt = d'.vt) (h4 : e.inputfiles = d'.inputfiles) : Keeps fs [] d e :=
  ⟨h1.trans h.filename, h2.trans h.readlist, fun k _ => by rw [h3, h.vt], by rw [h4]; exact h.files, fun s => .inl (by rw [h3, h.vt])⟩

theorem coords_keeps (fs : FS) (d d' : Deck) (name : Str) (f : File) (h : coords fs d name f = .ok d') : Keeps fs [] d d' ∧ d'.af = d.af := by
  unfold coords at h
  split at h
  · cases h
  · split at h
    · cases h
    · obtain ⟨⟨d1, g⟩, h1, h2⟩ := bind_ok _ _ _ h
      obtain ⟨q, _⟩ := readAs_ok fs d d1 _ _ g h1
      cases h2
      exact ⟨Keeps.of_quiet q rfl rfl rfl rfl, q.af⟩
    · cases h
      exact ⟨Keeps.refl fs _ _, rfl⟩
  · cases h
    exact ⟨Keeps.refl fs _ _, rfl⟩

theorem polar_keeps (fs : FS) (base : Str) (d d' : Deck) (n : Str) (h : polar fs base d n = .ok d') :
    Keeps fs [] d d' ∧ d'.af = d.af ++ [atPath fs d.readlist d.filename (unquote (pjoin base n)) "AF".toList] := by
  unfold polar at h
  cases hr : readAs fs d (unquote (pjoin base n)) "AF".toList with
  | error e =>
    rw [hr] at h
    cases h
    refine ⟨⟨rfl, rfl, fun _ _ => rfl, fun _ _ h => .inl h, fun _ => .inl rfl⟩, ?_⟩
    simp only
    congr 2
    unfold readAs at hr
    unfold atPath
    split at hr
    · cases hr
    · split at hr
      · cases hr
      · split at hr
        · cases hr
        · cases hr
        · rename_i hb
          rw [hb]
          split <;> rfl
  | ok p =>
    obtain ⟨d1, f⟩ := p
    obtain ⟨q, hf⟩ := readAs_ok fs d d1 _ _ f hr
    rw [hr] at h
    cases f with
    | none =>
      cases h
      exact ⟨Keeps.of_quiet q rfl rfl rfl rfl, by simp only [q.af, hf]⟩
    | some f =>
      obtain ⟨k, ha⟩ := coords_keeps fs _ d' _ _ h
      refine ⟨(Keeps.of_quiet (e := { d1 with af := d1.af ++ [some f] }) q rfl rfl rfl rfl).trans k, ?_⟩
      rw [ha, hf, q.af]

theorem polars_keeps (fs : FS) (base : Str) (l : List Str) (d d' : Deck) (h : l.foldlM (polar fs base) d = .ok d') :
    Keeps fs [] d d' ∧ d'.af = d.af ++ l.map (fun n => atPath fs d.readlist d.filename (unquote (pjoin base n)) "AF".toList) := by
  induction l generalizing d with
  | nil =>
    cases h
    exact ⟨Keeps.refl fs _ _, by simp⟩
  | cons n l ih =>
    rw [List.foldlM_cons] at h
    obtain ⟨d1, h1, h2⟩ := bind_ok _ _ _ h
    obtain ⟨k1, a1⟩ := polar_keeps fs base d d1 n h1
    obtain ⟨k2, a2⟩ := ih d1 h2
    refine ⟨k1.trans k2, ?_⟩
    rw [a2, a1, k1.readlist, k1.filename]
    simp

/-- the files of AeroDyn -/
theorem aeroFiles_ok (fs : FS) (d d' : Deck) (base : Str) (ad : File) (h : aeroFiles fs d base ad = .ok d') :
    Keeps fs [.adBld] d d' ∧ ∃ bl ad15 v names, ad.get "ADBlFile(1)" = some (.str bl) ∧ d.vt .ad15 = some ad15 ∧ ad15.get "AFNames" = some v ∧ elements v = .ok names ∧
      d'.vt .adBld = atPath fs d.readlist d.filename (pjoin base bl) "ADbld".toList ∧
      d'.af = names.map (fun n => atPath fs d.readlist d.filename (unquote (pjoin base n)) "AF".toList) := by
  obtain ⟨bl, hbl, h⟩ := bind_ok _ _ _ h
  obtain ⟨d1, hl, h⟩ := bind_ok _ _ _ h
  obtain ⟨k1, v1⟩ := load_keeps fs d d1 .adBld _ hl
  simp only at h
  split at h
  · cases h
  · rename_i ad15 had
    split at h
    · cases h
    · rename_i v hv
      obtain ⟨names, hn, h⟩ := bind_ok _ _ _ h
      obtain ⟨k2, a2⟩ := polars_keeps fs base names _ d' h
      have k2' : Keeps fs [] d1 d' := ⟨k2.filename, k2.readlist, k2.vt, k2.files, k2.asked⟩
      refine ⟨k1.trans k2', bl, ad15, v, names, getStr_ok _ _ _ hbl, ?_, hv, hn, ?_, ?_⟩
      · rw [← had, k1.vt _ (by simp)]
      · rw [k2'.vt _ (by simp), v1]
        rfl
      · rw [a2]
        simp only [List.nil_append, k1.readlist, k1.filename]

theorem ite_ok {β : Type} (c : Prop) [Decidable c] (x y : Except Err β) (b : β) (h : (if c then x else y) = .ok b) : c ∧ x = .ok b ∨ ¬ c ∧ y = .ok b := by
  by_cases hc : c
  · exact .inl ⟨hc, by rwa [if_pos hc] at h⟩
  · exact .inr ⟨hc, by rwa [if_neg hc] at h⟩

/-- what is known of the files of AeroDyn -/
def AeroFiles (fs : FS) (d' : Deck) (e : Str) (ad polars : File) : Prop :=
  ∃ bl v names, ad.get "ADBlFile(1)" = some (.str bl) ∧ polars.get "AFNames" = some v ∧ elements v = .ok names ∧
    d'.vt .adBld = atPath fs d'.readlist d'.filename (pjoin (dirname e) bl) "ADbld".toList ∧
    d'.af = names.map (fun n => atPath fs d'.readlist d'.filename (unquote (pjoin (dirname e) n)) "AF".toList)

theorem aero_ok (fs : FS) (d d' : Deck) (slot : Slot) (hs : slot = .ad14 ∨ slot = .ad15) (e : Str) (h : aero fs d slot e = .ok d') :
    Keeps fs [slot, .adBld] d d' ∧ d'.vt slot = atPath fs d.readlist d.filename e "AD".toList ∧
    (∀ ad, d'.vt slot = some ad → ∃ p, d'.vt .ad15 = some p ∧ AeroFiles fs d' e ad p) ∧ (d'.vt slot = none → d'.af = d.af ∧ d'.vt .adBld = d.vt .adBld) := by
  obtain ⟨d1, hl, h⟩ := bind_ok _ _ _ h
  have hk : "AD".toList = readKind slot := by rcases hs with rfl | rfl <;> rfl
  have hne : slot ≠ .adBld := by rcases hs with rfl | rfl <;> decide
  have haf := (load_ok fs d d1 slot e _ hl).2.2.1
  rw [hk] at hl
  obtain ⟨k1, v1⟩ := load_keeps fs d d1 slot e hl
  rw [← hk] at v1
  cases hv : d1.vt slot with
  | none =>
    rw [hv] at h
    cases h
    refine ⟨?_, v1, fun ad had => ?_, fun _ => ⟨haf, k1.vt _ (by simpa using hne.symm)⟩⟩
    · exact (k1.trans (Keeps.refl fs [.adBld] _))
    · rw [hv] at had
      cases had
  | some ad =>
    rw [hv] at h
    obtain ⟨k2, bl, p, v, names, h1, h2, h3, h4, h5, h6⟩ := aeroFiles_ok fs d1 d' _ ad h
    have hsl : d'.vt slot = d1.vt slot := k2.vt _ (by simpa using hne)
    refine ⟨k1.trans k2, by rw [hsl, v1], fun ad' had => ?_, fun hn => ?_⟩
    · rw [hsl, hv] at had
      cases had
      refine ⟨p, by rw [k2.vt _ (by simp), h2], bl, v, names, h1, h3, h4, ?_, ?_⟩
      · rw [k2.readlist, k2.filename]
        exact h5
      · rw [k2.readlist, k2.filename]
        exact h6
    · rw [hsl, hv] at hn
      cases hn

theorem readAD_ok (fs : FS) (d d' : Deck) (main : File) (slot : Slot) (hs : slot = .ad14 ∨ slot = .ad15) (rl : Option (List Str)) (hrl : rl = none ∨ rl = some d.readlist ∧ "all".toList ∉ d.readlist)
    (hm : d.vt .fst = some main) (h : readAD fs d none rl slot = .ok d') : ∃ e, main.get "AeroFile" = some (.str e) ∧ aero fs d slot e = .ok d' := by
  have key : ∀ d1 : Deck, d1 = d → (do
      let name ← match d1.vt .fst with
        | none => .error .type
        | some main => getStr main "AeroFile"
      let d2 ← aero fs d1 slot name
      return { d2 with readlist := d.readlist } : Except Err Deck) = .ok d' → ∃ e, main.get "AeroFile" = some (.str e) ∧ aero fs d slot e = .ok d' := by
    intro d1 hd h
    subst hd
    rw [hm] at h
    obtain ⟨e, he, h⟩ := bind_ok _ _ _ h
    obtain ⟨d2, h2, h⟩ := bind_ok _ _ _ h
    refine ⟨e, getStr_ok _ _ _ he, ?_⟩
    rw [h2, ← h, ← (aero_ok fs d1 d2 slot hs e h2).1.readlist]
    rfl
  rcases hrl with rfl | ⟨rfl, hall⟩
  · exact key d rfl h
  · refine key { d with readlist := if "all".toList ∈ d.readlist then allKinds else d.readlist } ?_ h
    rw [if_neg hall]

theorem stepED_ok (fs : FS) (main : File) (d d' : Deck) (h : stepED fs main d = .ok d') :
    Keeps fs [.ed, .edTwr, .edBld] d d' ∧ Module fs d d' main (main.get "EDFile" ≠ none) .ed "EDFile" "ED" ∧
    (main.get "EDFile" ≠ none → ∀ ed, d'.vt .ed = some ed →
      d'.vt .edTwr = atPath fs d'.readlist d'.filename (twrRel main ed) "EDtwr".toList ∧ d'.vt .edBld = atPath fs d'.readlist d'.filename (bldRel main ed) "EDbld".toList) := by
  have hhas : main.has "EDFile" = true ↔ main.get "EDFile" ≠ none := by
    unfold File.has
    cases main.get "EDFile" <;> simp
  rcases ite_ok _ _ _ _ h with ⟨hc, h⟩ | ⟨hc, h⟩
  · have hc := hhas.1 hc
    obtain ⟨e, he, h⟩ := bind_ok _ _ _ h
    obtain ⟨d1, hl, h⟩ := bind_ok _ _ _ h
    obtain ⟨k1, v1⟩ := load_keeps fs d d1 .ed e hl
    have hm : ∀ d', Keeps fs [.edTwr, .edBld] d1 d' → Module fs d d' main (main.get "EDFile" ≠ none) .ed "EDFile" "ED" := by
      intro d' k
      refine ⟨fun _ => ⟨e, getStr_ok _ _ _ he, ?_⟩, fun hn => absurd hc hn⟩
      rw [k.vt _ (by simp), v1, k.readlist, k.filename, k1.readlist, k1.filename]
      rfl
    cases hv : d1.vt .ed with
    | none =>
      rw [hv] at h
      cases h
      refine ⟨k1.trans (Keeps.refl fs [.edTwr, .edBld] _), hm _ (Keeps.refl fs _ _), fun _ ed hed => ?_⟩
      rw [hv] at hed
      cases hed
    | some ed =>
      rw [hv] at h
      obtain ⟨d2, h2, h3⟩ := bind_ok _ _ _ h
      obtain ⟨k2, v2⟩ := load_keeps fs d1 d2 .edTwr _ h2
      obtain ⟨k3, v3⟩ := load_keeps fs d2 d' .edBld _ h3
      refine ⟨k1.trans (k2.trans k3), hm _ (k2.trans k3), fun _ ed' hed => ?_⟩
      rw [(k2.trans k3).vt _ (by simp), hv] at hed
      cases hed
      refine ⟨?_, ?_⟩
      · rw [k3.vt _ (by simp), v2, k3.readlist, k2.readlist, k3.filename, k2.filename]
        rfl
      · rw [v3, k3.readlist, k3.filename]
        rfl
  · cases h
    refine ⟨Keeps.refl fs _ _, ⟨fun ho => absurd (hhas.2 ho) hc, fun _ => rfl⟩, fun ho => absurd (hhas.2 ho) hc⟩

theorem stepBD_ok (fs : FS) (main : File) (d d' : Deck) (h : stepBD fs main d = .ok d') :
    Keeps fs [.bd, .bdBld] d d' ∧ Module fs d d' main (Flag main "CompElast" (· = 2)) .bd "BDBldFile(1)" "BD" ∧
    (Flag main "CompElast" (· = 2) → ∀ bd, d'.vt .bd = some bd → ∃ e n, main.get "BDBldFile(1)" = some (.str e) ∧ bd.get "BldFile" = some (.str n) ∧
      d'.vt .bdBld = atPath fs d'.readlist d'.filename (pjoin (dirname e) n) "BDbld".toList) := by
  obtain ⟨b, hb, h⟩ := bind_ok _ _ _ h
  have hb := equals_ok _ _ _ _ hb
  rcases ite_ok _ _ _ _ h with ⟨hc, h⟩ | ⟨hc, h⟩
  · have ho := hb.1 hc
    obtain ⟨e, he, h⟩ := bind_ok _ _ _ h
    obtain ⟨d1, hl, h⟩ := bind_ok _ _ _ h
    obtain ⟨k1, v1⟩ := load_keeps fs d d1 .bd e hl
    have hm : ∀ d', Keeps fs [.bdBld] d1 d' → Module fs d d' main (Flag main "CompElast" (· = 2)) .bd "BDBldFile(1)" "BD" := by
      intro d' k
      refine ⟨fun _ => ⟨e, getStr_ok _ _ _ he, ?_⟩, fun hn => absurd ho hn⟩
      rw [k.vt _ (by simp), v1, k.readlist, k.filename, k1.readlist, k1.filename]
      rfl
    cases hv : d1.vt .bd with
    | none =>
      rw [hv] at h
      cases h
      refine ⟨k1.trans (Keeps.refl fs [.bdBld] _), hm _ (Keeps.refl fs _ _), fun _ ed hed => ?_⟩
      rw [hv] at hed
      cases hed
    | some bd =>
      rw [hv] at h
      obtain ⟨n, hn, h2⟩ := bind_ok _ _ _ h
      obtain ⟨k2, v2⟩ := load_keeps fs d1 d' .bdBld _ h2
      refine ⟨k1.trans k2, hm _ k2, fun _ ed' hed => ?_⟩
      rw [k2.vt _ (by simp), hv] at hed
      cases hed
      refine ⟨e, n, getStr_ok _ _ _ he, getStr_ok _ _ _ hn, ?_⟩
      rw [v2, k2.readlist, k2.filename]
      rfl
  · cases h
    exact ⟨Keeps.refl fs _ _, ⟨fun ho => absurd (hb.2 ho) hc, fun _ => rfl⟩, fun ho => absurd (hb.2 ho) hc⟩

theorem stepAD_ok (fs : FS) (main : File) (d d' : Deck) (hall : "all".toList ∉ d.readlist) (hm : d.vt .fst = some main) (h : stepAD fs main d = .ok d') :
    Keeps fs [.ad14, .ad15, .adBld] d d' ∧ Module fs d d' main (Flag main "CompAero" (fun n => 0 < n ∧ n ≠ 1)) .ad15 "AeroFile" "AD" ∧
    (Flag main "CompAero" (fun n => 0 < n ∧ n ≠ 1) → ∀ ad, d'.vt .ad15 = some ad → ∃ e, main.get "AeroFile" = some (.str e) ∧ AeroFiles fs d' e ad ad) ∧
    (Flag main "CompAero" (· = 1) → ∃ e, main.get "AeroFile" = some (.str e) ∧ d'.vt .ad14 = atPath fs d'.readlist d'.filename e "AD".toList ∧
      (d'.vt .ad14 ≠ none → d.vt .ad15 ≠ none)) := by
  obtain ⟨b, hb, h⟩ := bind_ok _ _ _ h
  have hb := positive_ok _ _ _ hb
  rcases ite_ok _ _ _ _ h with ⟨hc, h⟩ | ⟨hc, h⟩
  · obtain ⟨b1, hb1, h⟩ := bind_ok _ _ _ h
    have hb1 := equals_ok _ _ _ _ hb1
    obtain ⟨n, hn, hpos⟩ := hb.1 hc
    have hfl : ∀ p : Int → Prop, Flag main "CompAero" p ↔ p n := by
      intro p
      constructor
      · rintro ⟨m, h1, h2⟩
        rw [hn] at h1
        cases h1
        exact h2
      · exact fun h2 => ⟨n, hn, h2⟩
    simp only [hfl] at *
    by_cases h1 : n = 1
    · rw [if_pos (hb1.2 h1)] at h
      obtain ⟨e, he, h⟩ := readAD_ok fs d d' main .ad14 (.inl rfl) _ (.inr ⟨rfl, hall⟩) hm h
      obtain ⟨k, v, f, _⟩ := aero_ok fs d d' .ad14 (.inl rfl) e h
      refine ⟨⟨k.filename, k.readlist, fun s hs => k.vt s (fun hc => hs ?_), k.files, k.asked⟩, ⟨fun ho => absurd h1 ho.2, fun _ => k.vt _ (by simp)⟩, fun ho => absurd h1 ho.2,
        fun _ => ⟨e, he, by rw [k.readlist, k.filename, v], fun hne => ?_⟩⟩
      · simp only [List.mem_cons] at hc ⊢
        tauto
      · cases hv : d'.vt .ad14 with
        | none => exact absurd hv hne
        | some ad =>
          obtain ⟨p, hp, _⟩ := f ad hv
          rw [← k.vt .ad15 (by simp), hp]
          simp
    · rw [if_neg (fun hc => h1 (hb1.1 hc))] at h
      obtain ⟨e, he, h⟩ := readAD_ok fs d d' main .ad15 (.inr rfl) _ (.inr ⟨rfl, hall⟩) hm h
      obtain ⟨k, v, f, _⟩ := aero_ok fs d d' .ad15 (.inr rfl) e h
      refine ⟨⟨k.filename, k.readlist, fun s hs => k.vt s (fun hc => hs ?_), k.files, k.asked⟩, ⟨fun _ => ⟨e, he, by rw [k.readlist, k.filename, v]⟩, fun ho => absurd ⟨hpos, h1⟩ ho⟩,
        fun _ ad had => ?_, fun ho => absurd ho h1⟩
      · simp only [List.mem_cons] at hc ⊢
        tauto
      · obtain ⟨p, hp, hf⟩ := f ad had
        rw [had] at hp
        cases hp
        exact ⟨e, he, hf⟩
  · cases h
    have hoff : ∀ p : Int → Prop, (∀ n, p n → 0 < n) → ¬ Flag main "CompAero" p := fun p hp ⟨n, h1, h2⟩ => hc (hb.2 ⟨n, h1, hp n h2⟩)
    exact ⟨Keeps.refl fs _ _, ⟨fun ho => absurd ho (hoff _ (fun n hn => hn.1)), fun _ => rfl⟩, fun ho => absurd ho (hoff _ (fun n hn => hn.1)),
      fun ho => absurd ho (hoff _ (fun n hn => by omega))⟩

/-- all that is known after reading an OpenFAST model -/
structure Facts (fs : FS) (d d' : Deck) (main : File) : Prop where
  keeps : ∃ l, Slot.fst ∉ l ∧ Keeps fs l d d'
  ed : Module fs d d' main (main.get "EDFile" ≠ none) .ed "EDFile" "ED"
  edFiles : main.get "EDFile" ≠ none → ∀ ed, d'.vt .ed = some ed →
      d'.vt .edTwr = atPath fs d'.readlist d'.filename (twrRel main ed) "EDtwr".toList ∧ d'.vt .edBld = atPath fs d'.readlist d'.filename (bldRel main ed) "EDbld".toList
  iw : Module fs d d' main (Flag main "CompInflow" (0 < ·)) .iw "InflowFile" "IW"
  ad : Module fs d d' main (Flag main "CompAero" (fun n => 0 < n ∧ n ≠ 1)) .ad15 "AeroFile" "AD"
  adFiles : Flag main "CompAero" (fun n => 0 < n ∧ n ≠ 1) → ∀ ad, d'.vt .ad15 = some ad → ∃ e, main.get "AeroFile" = some (.str e) ∧ AeroFiles fs d' e ad ad
  ad14 : Flag main "CompAero" (· = 1) → ∃ e, main.get "AeroFile" = some (.str e) ∧ d'.vt .ad14 = atPath fs d'.readlist d'.filename e "AD".toList ∧ (d'.vt .ad14 ≠ none → d.vt .ad15 ≠ none)
  srvd : Module fs d d' main (Flag main "CompServo" (0 < ·)) .srvd "ServoFile" "SrvD"
  hd : Module fs d d' main (Flag main "CompHydro" (· = 1)) .hd "HydroFile" "HD"
  sd : Module fs d d' main (Flag main "CompSub" (· = 1)) .sd "SubFile" "HD"
  map : Module fs d d' main (Flag main "CompMooring" (· = 1)) .map "MooringFile" "MD"
  moordyn : Module fs d d' main (Flag main "CompMooring" (· = 2)) .moordyn "MooringFile" "MD"
  bd : Module fs d d' main (Flag main "CompElast" (· = 2)) .bd "BDBldFile(1)" "BD"
  bdFiles : Flag main "CompElast" (· = 2) → ∀ bd, d'.vt .bd = some bd → ∃ e n, main.get "BDBldFile(1)" = some (.str e) ∧ bd.get "BldFile" = some (.str n) ∧
      d'.vt .bdBld = atPath fs d'.readlist d'.filename (pjoin (dirname e) n) "BDbld".toList

/-- the polars are only touched by AeroDyn -/
theorem stepIf_af (fs : FS) (main : File) (cond : Except Err Bool) (slot : Slot) (ref kind : String) (d d' : Deck) (h : stepIf fs main cond slot ref kind d = .ok d') : d'.af = d.af := by
  obtain ⟨b, hb, h⟩ := bind_ok _ _ _ h
  rcases ite_ok _ _ _ _ h with ⟨_, h⟩ | ⟨_, h⟩
  · obtain ⟨rel, _, h⟩ := bind_ok _ _ _ h
    exact (load_ok fs d d' slot rel _ h).2.2.1
  · cases h
    rfl

theorem stepBD_af (fs : FS) (main : File) (d d' : Deck) (h : stepBD fs main d = .ok d') : d'.af = d.af := by
  obtain ⟨b, hb, h⟩ := bind_ok _ _ _ h
  rcases ite_ok _ _ _ _ h with ⟨_, h⟩ | ⟨_, h⟩
  · obtain ⟨rel, _, h⟩ := bind_ok _ _ _ h
    obtain ⟨d1, hl, h⟩ := bind_ok _ _ _ h
    have h1 := (load_ok fs d d1 _ rel _ hl).2.2.1
    cases hv : d1.vt .bd with
    | none =>
      rw [hv] at h
      cases h
      exact h1
    | some bd =>
      rw [hv] at h
      obtain ⟨n, _, h⟩ := bind_ok _ _ _ h
      exact (load_ok fs d1 d' _ _ _ h).2.2.1.trans h1
  · cases h
    rfl

theorem AeroFiles.keep {fs : FS} {d d' : Deck} {l : List Slot} {e : Str} {ad p : File} (h : AeroFiles fs d e ad p) (hk : Keeps fs l d d') (hs : Slot.adBld ∉ l) (haf : d'.af = d.af) : AeroFiles fs d' e ad p := by
  obtain ⟨bl, v, names, h1, h2, h3, h4, h5⟩ := h
  exact ⟨bl, v, names, h1, h2, h3, by rw [hk.vt _ hs, h4, hk.readlist, hk.filename], by rw [haf, h5, hk.readlist, hk.filename]⟩

theorem readOF2_ok (fs : FS) (main : File) (d d' : Deck) (hall : "all".toList ∉ d.readlist) (hm : d.vt .fst = some main) (h : readOF2 fs main d = .ok d') : Facts fs d d' main := by
  obtain ⟨d1, h1, h⟩ := bind_ok _ _ _ h
  obtain ⟨d2, h2, h⟩ := bind_ok _ _ _ h
  obtain ⟨d3, h3, h⟩ := bind_ok _ _ _ h
  obtain ⟨d4, h4, h⟩ := bind_ok _ _ _ h
  obtain ⟨d5, h5, h⟩ := bind_ok _ _ _ h
  obtain ⟨d6, h6, h⟩ := bind_ok _ _ _ h
  obtain ⟨d7, h7, h⟩ := bind_ok _ _ _ h
  obtain ⟨d8, h8, h9⟩ := bind_ok _ _ _ h
  have haf : d'.af = d3.af := (stepBD_af _ _ _ _ h9).trans ((stepIf_af _ _ _ _ _ _ _ _ h8).trans ((stepIf_af _ _ _ _ _ _ _ _ h7).trans
    ((stepIf_af _ _ _ _ _ _ _ _ h6).trans ((stepIf_af _ _ _ _ _ _ _ _ h5).trans (stepIf_af _ _ _ _ _ _ _ _ h4)))))
  obtain ⟨k1, m1, f1⟩ := stepED_ok fs main d d1 h1
  obtain ⟨k2, m2⟩ := stepIf_ok fs main _ _ (positive_ok main "CompInflow") .iw _ _ rfl d1 d2 h2
  have k12 := k1.trans k2
  obtain ⟨k3, m3, f3, g3⟩ := stepAD_ok fs main d2 d3 (by rw [k12.readlist]; exact hall) (by rw [k12.vt _ (by simp), hm]) h3
  obtain ⟨k4, m4⟩ := stepIf_ok fs main _ _ (positive_ok main "CompServo") .srvd _ _ rfl d3 d4 h4
  obtain ⟨k5, m5⟩ := stepIf_ok fs main _ _ (equals_ok main "CompHydro" 1) .hd _ _ rfl d4 d5 h5
  obtain ⟨k6, m6⟩ := stepIf_ok fs main _ _ (equals_ok main "CompSub" 1) .sd _ _ rfl d5 d6 h6
  obtain ⟨k7, m7⟩ := stepIf_ok fs main _ _ (equals_ok main "CompMooring" 1) .map _ _ rfl d6 d7 h7
  obtain ⟨k8, m8⟩ := stepIf_ok fs main _ _ (equals_ok main "CompMooring" 2) .moordyn _ _ rfl d7 d8 h8
  obtain ⟨k9, m9, f9⟩ := stepBD_ok fs main d8 d' h9
  have t8 := k9
  have t7 := k8.trans t8
  have t6 := k7.trans t7
  have t5 := k6.trans t6
  have t4 := k5.trans t5
  have t3 := k4.trans t4
  have t2 := k3.trans t3
  have t1 := k2.trans t2
  have s2 := k12
  have s3 := s2.trans k3
  have s4 := s3.trans k4
  have s5 := s4.trans k5
  have s6 := s5.trans k6
  have s7 := s6.trans k7
  have s8 := s7.trans k8
  refine ⟨⟨_, ?_, k1.trans t1⟩, m1.keep t1 (by simp), fun ho ed hed => ?_, (m2.from k1 (by simp)).keep t2 (by simp), (m3.from s2 (by simp)).keep t3 (by simp), fun ho ad had => ?_, fun ho => ?_,
    (m4.from s3 (by simp)).keep t4 (by simp), (m5.from s4 (by simp)).keep t5 (by simp), (m6.from s5 (by simp)).keep t6 (by simp), (m7.from s6 (by simp)).keep t7 (by simp),
    (m8.from s7 (by simp)).keep t8 (by simp), m9.from s8 (by simp), f9⟩
  · simp
  · rw [t1.vt _ (by simp)] at hed
    rw [t1.vt _ (by simp), t1.vt .edBld (by simp), t1.readlist, t1.filename]
    exact f1 ho ed hed
  · rw [t3.vt _ (by simp)] at had
    obtain ⟨e, he, hf⟩ := f3 ho ad had
    exact ⟨e, he, hf.keep t3 (by simp) haf⟩
  · obtain ⟨e, he, hv, hn⟩ := g3 ho
    refine ⟨e, he, by rw [t3.vt _ (by simp), hv, t3.readlist, t3.filename], fun hne => ?_⟩
    rw [t3.vt _ (by simp)] at hne
    have := hn hne
    rwa [s2.vt _ (by simp)] at this

/-- reading an OpenFAST model -/
theorem read_ok (fs : FS) (d d' : Deck) (main : File) (hall : "all".toList ∉ d.readlist) (h : read fs d none = .ok d') (hm : d'.vt .fst = some main) (hof : OpenFast main) :
    ∃ d1, Keeps fs [.fst] d d1 ∧ d1.vt .fst = some main ∧ readOF2 fs main d1 = .ok d' ∧ main ∈ atPath fs d.readlist d.filename (basename d.filename) "Fst".toList := by
  obtain ⟨d1, hl, h⟩ := bind_ok _ _ _ h
  obtain ⟨k1, v1⟩ := load_keeps fs d d1 .fst _ hl
  cases hv : d1.vt .fst with
  | none =>
    rw [hv] at h
    cases h
  | some m =>
    rw [hv] at h
    simp only at h
    have hall1 : "all".toList ∉ d1.readlist := by rw [k1.readlist]; exact hall
    rcases ite_ok _ _ _ _ h with ⟨hc, h⟩ | ⟨hc, h⟩
    · exfalso
      obtain ⟨d2, h2, h⟩ := bind_ok _ _ _ h
      obtain ⟨k2, _⟩ := stepIf_ok fs m _ _ (positive_ok m "CompInflow") .iw _ _ rfl d1 d2 h2
      obtain ⟨e, _, h⟩ := readAD_ok fs d2 d' m .ad15 (.inr rfl) none (.inl rfl) (by rw [k2.vt _ (by simp), hv]) h
      obtain ⟨k3, _⟩ := aero_ok fs d2 d' .ad15 (.inr rfl) e h
      rw [(k2.trans k3).vt _ (by simp), hv] at hm
      cases hm
      unfold File.has at hc
      rw [hof.1] at hc
      cases hc
    · rcases ite_ok _ _ _ _ h with ⟨hi, h⟩ | ⟨hi, h⟩
      · obtain ⟨l, hl, k2⟩ := (readOF2_ok fs m d1 d' hall1 hv h).keeps
        have : m = main := by
          rw [k2.vt _ hl, hv] at hm
          exact Option.some.inj hm
        subst this
        refine ⟨d1, k1, hv, h, ?_⟩
        show atPath fs d.readlist d.filename (basename d.filename) "Fst".toList = some m
        rw [← hv, v1]
        rfl
      · exfalso
        cases h
        rw [hv] at hm
        cases hm
        apply hof.2
        unfold File.has at hi
        cases hg : main.get "InterpOrder" with
        | none => rfl
        | some v => rw [hg] at hi; exact absurd rfl hi

theorem new_all (filename : Str) (rl : List Str) : "all".toList ∉ (new filename rl).readlist := by
  show "all".toList ∉ (if "all".toList ∈ rl then allKinds else "Fst".toList :: rl)
  split
  · decide +kernel
  · rename_i h
    simp only [List.mem_cons, not_or]
    exact ⟨by decide +kernel, h⟩

theorem open_read (fs : FS) (filename : Str) (rl : List Str) (d : Deck) (main : File) (h : open_ fs filename rl = .ok d) (hm : d.vt .fst = some main) :
    read fs (new filename rl) none = .ok d := by
  rcases ite_ok _ _ _ _ h with ⟨_, h⟩ | ⟨_, h⟩
  · cases h
    cases hm
  · exact h

/-- the facts for a new object -/
theorem open_ok (fs : FS) (filename : Str) (rl : List Str) (d : Deck) (main : File) (h : open_ fs filename rl = .ok d) (hm : d.vt .fst = some main) (hof : OpenFast main) :
    ∃ d1, Keeps fs [.fst] (new filename rl) d1 ∧ Facts fs d1 d main ∧ d.filename = filename ∧ d.readlist = (new filename rl).readlist := by
  obtain ⟨d1, k1, v1, h1, _⟩ := read_ok fs _ d main (new_all _ _) (open_read fs filename rl d main h hm) hm hof
  have f := readOF2_ok fs main d1 d (by rw [k1.readlist]; exact new_all _ _) v1 h1
  obtain ⟨l, _, k2⟩ := f.keeps
  exact ⟨d1, k1, f, by rw [k2.filename, k1.filename]; rfl, by rw [k2.readlist, k1.readlist]⟩

theorem Module.new {fs : FS} {filename : Str} {rl : List Str} {d1 d : Deck} {main : File} {on : Prop} {slot : Slot} {ref kind : String} (h : Module fs d1 d main on slot ref kind)
    (hk : Keeps fs [.fst] (new filename rl) d1) (hs : slot ≠ .fst) : (on → ∃ rel, main.get ref = some (.str rel) ∧ d.vt slot = atPath fs d.readlist d.filename rel kind.toList) ∧ (¬ on → d.vt slot = none) :=
  ⟨h.1, fun hn => by rw [h.2 hn, hk.vt _ (by simpa using hs)]; rfl⟩

theorem dropWhile_concat (p : Char → Bool) (x : Char) (hx : p x = false) (a : Str) : (a ++ [x]).dropWhile p = a.dropWhile p ++ [x] := by
  induction a with
  | nil => simp [List.dropWhile, hx]
  | cons c a ih =>
    rw [List.cons_append, List.dropWhile_cons, List.dropWhile_cons]
    split
    · exact ih
    · rfl

theorem rstripBy_cons (p : Char → Bool) (x : Char) (hx : p x = false) (s : Str) : rstripBy p (x :: s) = x :: rstripBy p s := by
  unfold rstripBy
  rw [List.reverse_cons, dropWhile_concat p x hx, List.reverse_append]
  rfl

theorem last_slash (p : Str) (h : '/' ∈ p) : ∃ d n, p = d ++ '/' :: n ∧ '/' ∉ n := by
  obtain ⟨a, b, hab, hn⟩ := List.eq_append_cons_of_mem (List.mem_reverse.2 h)
  refine ⟨b.reverse, a.reverse, ?_, by simpa using hn⟩
  have := congrArg List.reverse hab
  simpa using this

/-- the directory of a relative name with a slash -/
theorem dirname_relative (d n : Str) (hd : Relative (d ++ '/' :: n)) (hn : '/' ∉ n) :
    dirname (d ++ '/' :: n) = rstripBy (· = '/') (d ++ ['/']) ∧ dirname ('"' :: (d ++ '/' :: n) ++ ['"']) = '"' :: rstripBy (· = '/') (d ++ ['/']) ∧
    rstripBy (· = '/') (d ++ ['/']) ≠ [] ∧ (rstripBy (· = '/') (d ++ ['/'])).getLast? ≠ some '/' := by
  cases d with
  | nil => exact absurd rfl hd
  | cons c d =>
    have hc : c ≠ '/' := fun hc => hd (by simp [hc])
    have hf : (decide (c = '/')) = false := by simpa using hc
    have e : ('"' :: (c :: d ++ '/' :: n) ++ ['"'] : Str) = ('"' :: c :: d) ++ '/' :: (n ++ ['"']) := by simp
    refine ⟨?_, ?_, ?_, ?_⟩
    · unfold dirname
      simp only [headPart_slash _ _ hn]
      rw [if_neg]
      simp [hc]
    · unfold dirname
      rw [e]
      simp only [headPart_slash _ (n ++ ['"']) (by simpa using hn)]
      rw [if_neg (by simp)]
      exact rstripBy_cons _ _ rfl _
    · rw [List.cons_append, rstripBy_cons _ _ hf]
      simp
    · intro hl
      have := rstripBy_last _ _ _ hl
      simp at this

theorem unquote_append (a b : Str) : unquote (a ++ b) = unquote a ++ unquote b := List.filter_append a b

theorem unquote_self (p : Str) (h : '"' ∉ p) : unquote p = p := by
  unfold unquote
  rw [List.filter_eq_self]
  intro c hc
  simp only [decide_eq_true_eq]
  exact fun e => h (e ▸ hc)

theorem unquote_noQuote (p : Str) : '"' ∉ unquote p := by
  unfold unquote
  simp

theorem unquote_written {e p : Str} (h : Written e p) : unquote e = p := by
  rcases h.2 with rfl | rfl
  · exact unquote_self _ h.1
  · rw [show ('"' :: (p ++ ['"'])) = ['"'] ++ (p ++ ['"']) from rfl, unquote_append, unquote_append, unquote_self p h.1]
    show [] ++ (p ++ []) = p
    simp

theorem mem_rstripBy {q : Char → Bool} {s : Str} {c : Char} (h : c ∈ rstripBy q s) : c ∈ s := by
  unfold rstripBy at h
  rw [List.mem_reverse] at h
  exact List.mem_reverse.1 ((List.dropWhile_sublist q).subset h)

theorem dirname_plain (p : Str) (h : '/' ∉ p) : dirname p = [] := by
  unfold dirname
  simp only [headPart_plain p h]
  rfl

/-- the directory of a name as it is written -/
theorem dirname_written {e p : Str} (h : Written e p) (hr : Relative p) :
    (dirname e = [] ∧ dirname p = [] ∨ (dirname e ≠ [] ∧ dirname p ≠ [])) ∧ unquote (dirname e) = dirname p ∧ (dirname e).getLast? ≠ some '/' ∧ (dirname p).getLast? ≠ some '/' := by
  by_cases hs : '/' ∈ p
  · obtain ⟨d, n, rfl, hn⟩ := last_slash p hs
    obtain ⟨h1, h2, h3, h4⟩ := dirname_relative d n hr hn
    have hq : '"' ∉ rstripBy (· = '/') (d ++ ['/']) := by
      intro hc
      have := mem_rstripBy hc
      apply h.1
      simp only [List.mem_append, List.mem_cons, List.not_mem_nil, or_false] at this ⊢
      tauto
    rcases h.2 with he | he
    · rw [he, h1]
      exact ⟨.inr ⟨h3, h3⟩, unquote_self _ hq, h4, h4⟩
    · rw [he, show ('"' :: (d ++ '/' :: n ++ ['"'])) = '"' :: (d ++ '/' :: n) ++ ['"'] from rfl, h2, h1]
      refine ⟨.inr ⟨by simp, h3⟩, ?_, ?_, h4⟩
      · rw [show ∀ s : Str, '"' :: s = ['"'] ++ s from fun _ => rfl, unquote_append, unquote_self _ hq]
        rfl
      · rw [show ∀ s : Str, '"' :: s = ['"'] ++ s from fun _ => rfl, List.getLast?_append]
        cases hl : (rstripBy (fun x => decide (x = '/')) (d ++ ['/'])).getLast? with
        | none => simp
        | some c =>
          rw [hl] at h4
          simpa using h4
  · have he : dirname e = [] := by
      apply dirname_plain
      rcases h.2 with rfl | rfl
      · exact hs
      · simpa using hs
    rw [he, dirname_plain p hs]
    exact ⟨.inl ⟨rfl, rfl⟩, rfl, by simp, by simp⟩

/-- a name in the directory of a file as it is written -/
theorem join_written {e p n : Str} (h : Written e p) (hr : Relative p) (hn : Relative (unquote n)) : unquote (pjoin (dirname e) n) = pjoin (dirname p) (unquote n) := by
  have hn' : n.head? ≠ some '/' := by
    intro hc
    cases n with
    | nil => cases hc
    | cons c n =>
      cases hc
      exact hn rfl
  obtain ⟨hnil, hu, l1, l2⟩ := dirname_written h hr
  unfold pjoin
  rw [if_neg hn', if_neg hn]
  rcases hnil with ⟨a, b⟩ | ⟨a, b⟩
  · rw [a, b, if_pos (.inl rfl), if_pos (.inl rfl)]
    rfl
  · rw [if_neg (by tauto), if_neg (by tauto), unquote_append, hu]
    rfl

theorem unquote_dirname {e p : Str} (h : Written e p) (hr : Relative p) : unquote (dirname e) = dirname p := (dirname_written h hr).2.1

theorem atPath_congr (fs : FS) (kinds : List Str) (main a b kind : Str) (h : unquote a = unquote b) : atPath fs kinds main a kind = atPath fs kinds main b kind := by
  unfold atPath
  rw [h]

theorem noQuote_pjoin {a b : Str} (ha : '"' ∉ a) (hb : '"' ∉ b) : '"' ∉ pjoin a b := by
  unfold pjoin
  split
  · exact hb
  · split
    · simp [ha, hb]
    · simp [ha, hb]

theorem noQuote_dirname {p : Str} (h : '"' ∉ p) : '"' ∉ dirname p := by
  have hh : ∀ c ∈ headPart p, c ∈ p := by
    intro c hc
    unfold headPart at hc
    rw [List.mem_reverse] at hc
    exact List.mem_reverse.1 ((List.dropWhile_sublist _).subset hc)
  unfold dirname
  simp only []
  split
  · exact fun hc => h (hh _ hc)
  · exact fun hc => h (hh _ (mem_rstripBy hc))

/-! ### Reading succeeds -/

theorem readAs_total (fs : FS) (hb : ∀ p, fs p ≠ .bad) (d : Deck) (rel kind : Str) : ∃ r, readAs fs d rel kind = .ok r := by
  unfold readAs
  split
  · exact ⟨_, rfl⟩
  · split
    · exact ⟨_, rfl⟩
    · cases hf : fs (pjoin (dirname d.filename) (unquote rel)) with
      | ok f => exact ⟨_, rfl⟩
      | missing => exact ⟨_, rfl⟩
      | bad => exact absurd hf (hb _)

theorem load_total (fs : FS) (hb : ∀ p, fs p ≠ .bad) (d : Deck) (slot : Slot) (rel kind : Str) : ∃ d', load fs d slot rel kind = .ok d' := by
  obtain ⟨⟨d1, f⟩, h⟩ := readAs_total fs hb d rel kind
  exact ⟨_, by unfold load; rw [h]; rfl⟩

theorem stepIf_total (fs : FS) (hb : ∀ p, fs p ≠ .bad) (main : File) (cond : Except Err Bool) (hc : ∃ b, cond = .ok b) (slot : Slot) (ref kind : String)
    (hr : ∃ r, main.get ref = some (.str r)) (d : Deck) : ∃ d', stepIf fs main cond slot ref kind d = .ok d' := by
  obtain ⟨b, rfl⟩ := hc
  obtain ⟨r, hr⟩ := hr
  have hg : getStr main ref = .ok r := by unfold getStr; rw [hr]
  cases b with
  | false => exact ⟨d, rfl⟩
  | true =>
    obtain ⟨d', h⟩ := load_total fs hb d slot r kind.toList
    refine ⟨d', ?_⟩
    unfold stepIf
    rw [hg]
    exact h

theorem coords_total (fs : FS) (hb : ∀ p, fs p ≠ .bad) (d : Deck) (name : Str) (f : File) (v : Val) (hv : f.get "NumCoords" = some v) (hne : ∀ s, v = .str s → unquote s ≠ []) :
    ∃ d', coords fs d name f = .ok d' := by
  unfold coords
  rw [hv]
  cases v with
  | num n => exact ⟨d, rfl⟩
  | list l => exact ⟨d, rfl⟩
  | str s =>
    have := hne s rfl
    simp only []
    split
    · rename_i e
      exact absurd e this
    · rename_i t e
      obtain ⟨⟨d1, g⟩, h⟩ := readAs_total fs hb d (pjoin (dirname name) t) "AC".toList
      exact ⟨_, by rw [h]; rfl⟩
    · exact ⟨d, rfl⟩

theorem atPath_some {fs : FS} {kinds : List Str} {main rel kind : Str} {f : File} (h : atPath fs kinds main rel kind = some f) : fs (pjoin (dirname main) (unquote rel)) = .ok f := by
  unfold atPath at h
  split at h
  · cases hf : fs (pjoin (dirname main) (unquote rel)) with
    | ok g =>
      rw [hf] at h
      cases h
      rfl
    | missing =>
      rw [hf] at h
      cases h
    | bad =>
      rw [hf] at h
      cases h
  · cases h

theorem unquote_unquote (s : Str) : unquote (unquote s) = unquote s := unquote_self _ (unquote_noQuote s)

theorem polars_total (fs : FS) (hb : ∀ p, fs p ≠ .bad) (base : Str) (l : List Str) (d : Deck)
    (hp : ∀ n ∈ l, ∀ f, fs (pjoin (dirname d.filename) (unquote (pjoin base n))) = .ok f → ∃ v, f.get "NumCoords" = some v ∧ ∀ s, v = .str s → unquote s ≠ []) :
    ∃ d', l.foldlM (polar fs base) d = .ok d' := by
  induction l generalizing d with
  | nil => exact ⟨d, rfl⟩
  | cons n l ih =>
    have h1 : ∃ d1, polar fs base d n = .ok d1 := by
      unfold polar
      obtain ⟨⟨d1, f⟩, hr⟩ := readAs_total fs hb d (unquote (pjoin base n)) "AF".toList
      rw [hr]
      cases f with
      | none => exact ⟨_, rfl⟩
      | some f =>
        obtain ⟨q, hf⟩ := readAs_ok fs d d1 _ _ _ hr
        have := atPath_some hf.symm
        rw [unquote_unquote] at this
        obtain ⟨v, hv, hne⟩ := hp n List.mem_cons_self f this
        exact coords_total fs hb _ _ f v hv hne
    obtain ⟨d1, h1⟩ := h1
    have k := (polar_keeps fs base d d1 n h1).1
    obtain ⟨d', h2⟩ := ih d1 (fun m hm => by rw [k.filename]; exact hp m (List.mem_cons_of_mem _ hm))
    exact ⟨d', by rw [List.foldlM_cons, h1]; exact h2⟩

theorem getStr_eq {f : File} {k : String} {s : Str} (h : f.get k = some (.str s)) : getStr f k = .ok s := by
  unfold getStr
  rw [h]

theorem aero_total (fs : FS) (hb : ∀ p, fs p ≠ .bad) (d : Deck) (e : Str)
    (hs : ∀ ad, fs (pjoin (dirname d.filename) (unquote e)) = .ok ad → ∃ b names, ad.get "ADBlFile(1)" = some (.str b) ∧ ad.get "AFNames" = some (.list names) ∧
      ∀ n ∈ names, ∀ f, fs (pjoin (dirname d.filename) (unquote (pjoin (dirname e) n))) = .ok f → ∃ v, f.get "NumCoords" = some v ∧ ∀ s, v = .str s → unquote s ≠ []) :
    ∃ d', aero fs d .ad15 e = .ok d' := by
  obtain ⟨d1, hl⟩ := load_total fs hb d .ad15 e "AD".toList
  obtain ⟨k1, v1⟩ := load_keeps fs d d1 .ad15 e hl
  unfold aero
  rw [hl]
  show ∃ d', (match d1.vt .ad15 with | none => Except.ok d1 | some ad => aeroFiles fs d1 (dirname e) ad) = .ok d'
  cases hv : d1.vt .ad15 with
  | none => exact ⟨d1, rfl⟩
  | some ad =>
    rw [hv] at v1
    obtain ⟨b, names, hbl, hn, hp⟩ := hs ad (atPath_some v1.symm)
    obtain ⟨d2, hl2⟩ := load_total fs hb d1 .adBld (pjoin (dirname e) b) "ADbld".toList
    obtain ⟨k2, _⟩ := load_keeps fs d1 d2 .adBld _ hl2
    obtain ⟨d3, h3⟩ := polars_total fs hb (dirname e) names { d2 with af := [] } (by
      show ∀ n ∈ names, ∀ f, fs (pjoin (dirname d2.filename) _) = _ → _
      rw [k2.filename, k1.filename]
      exact hp)
    refine ⟨d3, ?_⟩
    simp only [aeroFiles]
    rw [getStr_eq hbl]
    show (load fs d1 .adBld (pjoin (dirname e) b) "ADbld".toList >>= _) = _
    rw [hl2]
    show (match d2.vt .ad15 with | none => _ | some ad15 => _) = _
    rw [k2.vt .ad15 (by simp), hv]
    show (match ad.get "AFNames" with | none => _ | some v => _) = _
    rw [hn]
    exact h3

theorem flag_cond {main : File} {k : String} (h : Flag main k (fun _ => True)) : (∃ b, positive main k = .ok b) ∧ ∀ n, ∃ b, equals main k n = .ok b := by
  obtain ⟨m, h, _⟩ := h
  refine ⟨⟨_, by unfold positive; rw [h]⟩, fun n => ⟨_, by unfold equals; rw [h]⟩⟩

theorem readOF2_total (fs : FS) (hb : ∀ p, fs p ≠ .bad) (main : File) (d : Deck) (hc : Complete main) (hs : Sound fs d.filename main) (hall : "all".toList ∉ d.readlist) (hm : d.vt .fst = some main) :
    ∃ d', readOF2 fs main d = .ok d' := by
  have h1 : ∃ d1, stepED fs main d = .ok d1 := by
    unfold stepED
    obtain ⟨e, he⟩ := hc.refs "EDFile" (by simp)
    rw [if_pos (by unfold File.has; rw [he]; rfl), getStr_eq he]
    obtain ⟨d1, hl⟩ := load_total fs hb d .ed e "ED".toList
    show ∃ d', (load fs d .ed e "ED".toList >>= _) = .ok d'
    rw [hl]
    simp only [ok_bind]
    cases d1.vt .ed with
    | none => exact ⟨d1, rfl⟩
    | some ed =>
      obtain ⟨d2, h2⟩ := load_total fs hb d1 .edTwr (twrRel main ed) "EDtwr".toList
      obtain ⟨d3, h3⟩ := load_total fs hb d2 .edBld (bldRel main ed) "EDbld".toList
      refine ⟨d3, ?_⟩
      show (load fs d1 .edTwr (twrRel main ed) "EDtwr".toList >>= _) = _
      rw [h2]
      exact h3
  obtain ⟨d1, h1⟩ := h1
  obtain ⟨k1, _⟩ := stepED_ok fs main d d1 h1
  obtain ⟨d2, h2⟩ := stepIf_total fs hb main _ (flag_cond (hc.flags "CompInflow" (by simp))).1 .iw "InflowFile" "IW" (hc.refs _ (by simp)) d1
  obtain ⟨k2, _⟩ := stepIf_ok fs main _ _ (positive_ok main "CompInflow") .iw _ _ rfl d1 d2 h2
  have k12 := k1.trans k2
  have h3 : ∃ d3, stepAD fs main d2 = .ok d3 := by
    obtain ⟨e, he⟩ := hc.refs "AeroFile" (by simp)
    obtain ⟨d3, h3⟩ := aero_total fs hb d2 e (by rw [k12.filename]; exact hs.ad e he)
    have k3 := (aero_ok fs d2 d3 .ad15 (.inr rfl) e h3).1
    obtain ⟨n, hn, _⟩ := hc.flags "CompAero" (by simp)
    have hn1 : n ≠ 1 := fun hn1 => hc.aero ⟨n, hn, hn1⟩
    have hp : positive main "CompAero" = .ok (0 < n) := by unfold positive; rw [hn]
    have he1 : equals main "CompAero" 1 = .ok false := by unfold equals; rw [hn]; simp [hn1]
    unfold stepAD
    rw [hp]
    by_cases h0 : 0 < n
    · refine ⟨d3, ?_⟩
      show (if decide (0 < n) = true then _ else _) = _
      rw [if_pos (by simpa using h0), he1]
      show readAD fs d2 none (some d2.readlist) .ad15 = _
      unfold readAD
      simp only []
      rw [if_neg (by rw [k12.readlist]; exact hall), k12.vt _ (by simp), hm]
      simp only []
      rw [getStr_eq he]
      show (aero fs d2 .ad15 e >>= fun d => pure { d with readlist := d2.readlist }) = _
      rw [h3, ← k3.readlist]
      rfl
    · refine ⟨d2, ?_⟩
      show (if decide (0 < n) = true then _ else _) = _
      rw [if_neg (by simpa using h0)]
  obtain ⟨d3, h3⟩ := h3
  obtain ⟨k3, _⟩ := stepAD_ok fs main d2 d3 (by rw [k12.readlist]; exact hall) (by rw [k12.vt _ (by simp), hm]) h3
  obtain ⟨d4, h4⟩ := stepIf_total fs hb main _ (flag_cond (hc.flags "CompServo" (by simp))).1 .srvd "ServoFile" "SrvD" (hc.refs _ (by simp)) d3
  obtain ⟨k4, _⟩ := stepIf_ok fs main _ _ (positive_ok main "CompServo") .srvd _ _ rfl d3 d4 h4
  obtain ⟨d5, h5⟩ := stepIf_total fs hb main _ ((flag_cond (hc.flags "CompHydro" (by simp))).2 1) .hd "HydroFile" "HD" (hc.refs _ (by simp)) d4
  obtain ⟨k5, _⟩ := stepIf_ok fs main _ _ (equals_ok main "CompHydro" 1) .hd _ _ rfl d4 d5 h5
  obtain ⟨d6, h6⟩ := stepIf_total fs hb main _ ((flag_cond (hc.flags "CompSub" (by simp))).2 1) .sd "SubFile" "HD" (hc.refs _ (by simp)) d5
  obtain ⟨k6, _⟩ := stepIf_ok fs main _ _ (equals_ok main "CompSub" 1) .sd _ _ rfl d5 d6 h6
  obtain ⟨d7, h7⟩ := stepIf_total fs hb main _ ((flag_cond (hc.flags "CompMooring" (by simp))).2 1) .map "MooringFile" "MD" (hc.refs _ (by simp)) d6
  obtain ⟨k7, _⟩ := stepIf_ok fs main _ _ (equals_ok main "CompMooring" 1) .map _ _ rfl d6 d7 h7
  obtain ⟨d8, h8⟩ := stepIf_total fs hb main _ ((flag_cond (hc.flags "CompMooring" (by simp))).2 2) .moordyn "MooringFile" "MD" (hc.refs _ (by simp)) d7
  obtain ⟨k8, _⟩ := stepIf_ok fs main _ _ (equals_ok main "CompMooring" 2) .moordyn _ _ rfl d7 d8 h8
  have k18 := k12.trans (k3.trans (k4.trans (k5.trans (k6.trans (k7.trans k8)))))
  have h9 : ∃ d9, stepBD fs main d8 = .ok d9 := by
    obtain ⟨b, hb2⟩ := (flag_cond (hc.flags "CompElast" (by simp))).2 2
    obtain ⟨e, he⟩ := hc.refs "BDBldFile(1)" (by simp)
    unfold stepBD
    rw [hb2, getStr_eq he]
    cases b with
    | false => exact ⟨d8, rfl⟩
    | true =>
      obtain ⟨d9, hl⟩ := load_total fs hb d8 .bd e "BD".toList
      obtain ⟨k9, v9⟩ := load_keeps fs d8 d9 .bd e hl
      show ∃ d', (load fs d8 .bd e "BD".toList >>= _) = .ok d'
      rw [hl]
      simp only [ok_bind]
      cases hv : d9.vt .bd with
      | none => exact ⟨d9, rfl⟩
      | some bd =>
        rw [hv] at v9
        have := atPath_some v9.symm
        rw [k18.filename] at this
        obtain ⟨bn, hbn⟩ := hs.bd e he bd this
        simp only []
        rw [getStr_eq hbn]
        exact load_total fs hb d9 .bdBld (pjoin (dirname e) bn) "BDbld".toList
  obtain ⟨d9, h9⟩ := h9
  refine ⟨d9, ?_⟩
  unfold readOF2
  rw [h1]
  show (stepIf fs main (positive main "CompInflow") .iw "InflowFile" "IW" d1 >>= _) = _
  rw [h2]
  show (stepAD fs main d2 >>= _) = _
  rw [h3]
  show (stepIf fs main (positive main "CompServo") .srvd "ServoFile" "SrvD" d3 >>= _) = _
  rw [h4]
  show (stepIf fs main (equals main "CompHydro" 1) .hd "HydroFile" "HD" d4 >>= _) = _
  rw [h5]
  show (stepIf fs main (equals main "CompSub" 1) .sd "SubFile" "HD" d5 >>= _) = _
  rw [h6]
  show (stepIf fs main (equals main "CompMooring" 1) .map "MooringFile" "MD" d6 >>= _) = _
  rw [h7]
  show (stepIf fs main (equals main "CompMooring" 2) .moordyn "MooringFile" "MD" d7 >>= _) = _
  rw [h8]
  exact h9

theorem ok_of_map {α : Type} (o : Except Err Deck) (f : Deck → α) (v : α) (h : o.toOption.map f = some v) : ∃ d, o = .ok d ∧ f d = v := by
  cases o with
  | error e => cases h
  | ok d => exact ⟨d, rfl, Option.some.inj h⟩

end Verif.DeckRead
