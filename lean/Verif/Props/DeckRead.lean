import Verif.Lemmas.DeckRead
import Verif.Lemmas.Path
import Mathlib.Tactic
/-! # Reading a FAST input deck -/
namespace Verif.DeckRead
open Verif.Py

/-- C142: after reading the input files of an OpenFAST model into a new object, each module that is switched on by the main file
holds the file the main file refers to, found from the directory of the main file (and nothing if such files are not asked
for, the name stands for an unused file, or there is no such file), and each module that is switched off holds nothing. -/
theorem C142 (fs : FS) (filename : Str) (rl : List Str) (d : Deck) (main : File) (h : open_ fs filename rl = .ok d) (hm : d.vt .fst = some main) (hof : OpenFast main) :
    let M := fun (on : Prop) (slot : Slot) (ref kind : String) =>
      (on → ∃ rel, main.get ref = some (.str rel) ∧ d.vt slot = atPath fs d.readlist filename rel kind.toList) ∧ (¬ on → d.vt slot = none)
    M (main.get "EDFile" ≠ none) .ed "EDFile" "ED" ∧
    M (Flag main "CompInflow" (0 < ·)) .iw "InflowFile" "IW" ∧
    M (Flag main "CompAero" (fun n => 0 < n ∧ n ≠ 1)) .ad15 "AeroFile" "AD" ∧
    M (Flag main "CompServo" (0 < ·)) .srvd "ServoFile" "SrvD" ∧
    M (Flag main "CompHydro" (· = 1)) .hd "HydroFile" "HD" ∧
    M (Flag main "CompMooring" (· = 1)) .map "MooringFile" "MD" ∧
    M (Flag main "CompMooring" (· = 2)) .moordyn "MooringFile" "MD" ∧
    M (Flag main "CompElast" (· = 2)) .bd "BDBldFile(1)" "BD" ∧
    main ∈ atPath fs d.readlist filename (basename filename) "Fst".toList := by
  obtain ⟨d1, k1, f, hf, hr⟩ := open_ok fs filename rl d main h hm hof
  obtain ⟨_, _, _, _, hmain⟩ := read_ok fs _ d main (new_all _ _) (open_read fs filename rl d main h hm) hm hof
  rw [← hr] at hmain
  have hmain : main ∈ atPath fs d.readlist filename (basename filename) "Fst".toList := hmain
  subst hf
  exact ⟨f.ed.new k1 (by decide), f.iw.new k1 (by decide), f.ad.new k1 (by decide), f.srvd.new k1 (by decide), f.hd.new k1 (by decide), f.map.new k1 (by decide),
    f.moordyn.new k1 (by decide), f.bd.new k1 (by decide), hmain⟩

/-- C143: the tower and blade files of ElastoDyn and the blade file of BeamDyn are looked for in the directory of the file of
their module, whether the names are quoted or not (relative names). -/
theorem C143 (fs : FS) (filename : Str) (rl : List Str) (d : Deck) (main : File) (h : open_ fs filename rl = .ok d) (hm : d.vt .fst = some main) (hof : OpenFast main) :
    (∀ ed e p t, d.vt .ed = some ed → main.get "EDFile" = some (.str e) → Written e p → Relative p → ed.get "TwrFile" = some (.str t) →
      d.vt .edTwr = atPath fs d.readlist filename (pjoin (dirname p) (unquote t)) "EDtwr".toList) ∧
    (∀ ed e p b, d.vt .ed = some ed → main.get "EDFile" = some (.str e) → Written e p → ed.get "BldFile(1)" = some (.str b) →
      d.vt .edBld = atPath fs d.readlist filename (pjoin (dirname p) (unquote b)) "EDbld".toList) ∧
    (∀ ed e p b, d.vt .ed = some ed → main.get "EDFile" = some (.str e) → Written e p → ed.get "BldFile(1)" = none → ed.get "BldFile1" = some (.str b) →
      d.vt .edBld = atPath fs d.readlist filename (pjoin (dirname p) (unquote b)) "EDbld".toList) ∧
    (∀ bd e p b, d.vt .bd = some bd → main.get "BDBldFile(1)" = some (.str e) → Written e p → Relative p → bd.get "BldFile" = some (.str b) → Relative (unquote b) →
      d.vt .bdBld = atPath fs d.readlist filename (pjoin (dirname p) (unquote b)) "BDbld".toList) := by
  obtain ⟨d1, k1, f, hf, _⟩ := open_ok fs filename rl d main h hm hof
  subst hf
  have hg : ∀ (f : File) (k : String) (s : Str), f.get k = some (.str s) → getStr f k = .ok s := fun f k s hs => by unfold getStr; rw [hs]
  refine ⟨fun ed e p t hed he hw hr ht => ?_, fun ed e p b hed he hw hb => ?_, fun ed e p b hed he hw hn hb => ?_, fun bd e p b hbd he hw hr hb hrb => ?_⟩
  · rw [(f.edFiles (by rw [he]; simp) ed hed).1]
    unfold twrRel
    rw [hg _ _ _ he, hg _ _ _ ht]
    simp only
    rw [unquote_dirname hw hr]
  · rw [(f.edFiles (by rw [he]; simp) ed hed).2]
    unfold bldRel
    have : ed.has "BldFile(1)" = true := by unfold File.has; rw [hb]; rfl
    rw [if_pos this, hg _ _ _ he, hg _ _ _ hb]
    simp only
    rw [unquote_written hw]
  · rw [(f.edFiles (by rw [he]; simp) ed hed).2]
    unfold bldRel
    have : ¬ ed.has "BldFile(1)" = true := by unfold File.has; rw [hn]; simp
    rw [if_neg this, hg _ _ _ he, hg _ _ _ hb]
    simp only
    rw [unquote_written hw]
  · have hon : Flag main "CompElast" (· = 2) := by
      by_contra hc
      rw [f.bd.2 hc, k1.vt _ (by decide)] at hbd
      cases hbd
    obtain ⟨e', n, h1, h2, h3⟩ := f.bdFiles hon bd hbd
    rw [he] at h1
    rw [hb] at h2
    cases h1
    cases h2
    rw [h3]
    apply atPath_congr
    rw [join_written hw hr hrb, unquote_self _ (noQuote_pjoin (noQuote_dirname hw.1) (unquote_noQuote b))]

/-- C144: the blade file and the polars of AeroDyn 15 are looked for in the directory of its file, whether names are quoted or
not (relative names); there is one entry for each polar in the order of the file, and none of them, be it missing or
not readable, keeps the others from being read. -/
theorem C144 (fs : FS) (filename : Str) (rl : List Str) (d : Deck) (main : File) (h : open_ fs filename rl = .ok d) (hm : d.vt .fst = some main) (hof : OpenFast main)
    (ad : File) (had : d.vt .ad15 = some ad) (e p : Str) (he : main.get "AeroFile" = some (.str e)) (hw : Written e p) (hr : Relative p) :
    (∀ b, ad.get "ADBlFile(1)" = some (.str b) → Relative (unquote b) → d.vt .adBld = atPath fs d.readlist filename (pjoin (dirname p) (unquote b)) "ADbld".toList) ∧
    (∀ names, ad.get "AFNames" = some (.list names) → (∀ n ∈ names, Relative (unquote n)) →
      d.af = names.map (fun n => atPath fs d.readlist filename (pjoin (dirname p) (unquote n)) "AF".toList)) := by
  obtain ⟨d1, k1, f, hf, _⟩ := open_ok fs filename rl d main h hm hof
  subst hf
  have hon : Flag main "CompAero" (fun n => 0 < n ∧ n ≠ 1) := by
    by_contra hc
    rw [f.ad.2 hc, k1.vt _ (by decide)] at had
    cases had
  obtain ⟨e', he', bl, v, names, h1, h2, h3, h4, h5⟩ := f.adFiles hon ad had
  rw [he] at he'
  cases he'
  refine ⟨fun b hb hrb => ?_, fun l hl hrl => ?_⟩
  · rw [h1] at hb
    cases hb
    rw [h4]
    apply atPath_congr
    rw [join_written hw hr hrb, unquote_self _ (noQuote_pjoin (noQuote_dirname hw.1) (unquote_noQuote _))]
  · rw [h2] at hl
    cases hl
    cases h3
    rw [h5]
    refine List.map_congr_left (fun n hn => ?_)
    rw [join_written hw hr (hrl n hn)]

/-- C145: only what is asked for is read: the list of files read (`inputfiles`) has only kinds that were asked for, with files that
could be read, and a module whose kind was not asked for is empty.  SubDyn is left out, see C147. -/
theorem C145 (fs : FS) (filename : Str) (rl : List Str) (d : Deck) (main : File) (h : open_ fs filename rl = .ok d) (hm : d.vt .fst = some main) (hof : OpenFast main) :
    (∀ k q, d.inputfiles k = some q → ("all".toList ∈ rl ∨ k = "Fst".toList ∨ k ∈ rl) ∧ ∃ f, fs q = .ok f) ∧
    (∀ s, s ≠ .sd → s ≠ .fst → "all".toList ∉ rl → kindOf s ∉ rl → d.vt s = none) := by
  obtain ⟨d1, k1, f, _, _⟩ := open_ok fs filename rl d main h hm hof
  obtain ⟨l, _, k2⟩ := f.keeps
  have k := k1.trans k2
  refine ⟨fun kd q hq => ?_, fun s hs hfst hall hk => ?_⟩
  · rcases k.files kd q hq with hq | ⟨hk, hf⟩
    · cases hq
    · refine ⟨?_, hf⟩
      by_cases hall : "all".toList ∈ rl
      · exact .inl hall
      · right
        have : kd ∈ (if "all".toList ∈ rl then allKinds else "Fst".toList :: rl) := hk
        rw [if_neg hall] at this
        simpa using this
  · rcases k.asked s with e | e | e
    · exact e
    · exact e
    · exfalso
      have e : readKind s ∈ (if "all".toList ∈ rl then allKinds else "Fst".toList :: rl) := e
      rw [if_neg hall] at e
      have hrk : readKind s = kindOf s := by cases s <;> first | rfl | exact absurd rfl hs
      rw [hrk] at e
      rcases List.mem_cons.1 e with e | e
      · revert e
        cases s <;> first | exact absurd rfl hfst | decide +kernel
      · exact hk e

/-- C146: an OpenFAST model whose main file is complete can be read even if files of its modules, blades or polars are missing; it
cannot be read if its main file is missing. -/
theorem C146 (fs : FS) (filename : Str) (rl : List Str) (hne : filename ≠ []) :
    (∀ main, (∀ p, fs p ≠ .bad) → atPath fs ["Fst".toList] filename (basename filename) "Fst".toList = some main → OpenFast main → Complete main → Sound fs filename main →
      ∃ d, open_ fs filename rl = .ok d ∧ d.vt .fst = some main) ∧
    (fs (pjoin (dirname filename) (unquote (basename filename))) = .missing → ∃ e, open_ fs filename rl = .error e) := by
  have hk : "Fst".toList ∈ (new filename rl).readlist := by
    show "Fst".toList ∈ (if "all".toList ∈ rl then allKinds else "Fst".toList :: rl)
    split
    · decide +kernel
    · exact List.mem_cons_self
  refine ⟨fun main hb hmain hof hc hs => ?_, fun hmiss => ?_⟩
  · obtain ⟨d1, hl⟩ := load_total fs hb (new filename rl) .fst (basename filename) "Fst".toList
    obtain ⟨k1, v1⟩ := load_keeps fs (new filename rl) d1 .fst _ hl
    have hv : d1.vt .fst = some main := by
      rw [v1, ← hmain]
      unfold atPath
      show (if "Fst".toList ∈ (new filename rl).readlist ∧ _ then _ else _) = _
      simp only [hk, List.mem_singleton, true_and]
      rfl
    obtain ⟨d', h⟩ := readOF2_total fs hb main d1 hc (by rw [k1.filename]; exact hs) (by rw [k1.readlist]; exact new_all _ _) hv
    have hopen : open_ fs filename rl = .ok d' := by
      unfold open_
      rw [if_neg hne]
      unfold read
      show (load fs (new filename rl) .fst (basename filename) "Fst".toList >>= _) = _
      rw [hl]
      show (match d1.vt .fst with | none => _ | some main => _) = _
      rw [hv]
      have h1 : main.has "NumTurbines" = false := by unfold File.has; rw [hof.1]; rfl
      have h2 : main.has "InterpOrder" = true := by
        unfold File.has
        cases hg : main.get "InterpOrder" with
        | none => exact absurd hg hof.2
        | some v => rfl
      simp only [h1, h2]
      exact h
    obtain ⟨l, hl', k2⟩ := (readOF2_ok fs main d1 d' (by rw [k1.readlist]; exact new_all _ _) hv h).keeps
    exact ⟨d', hopen, by rw [k2.vt _ hl', hv]⟩
  · refine ⟨.main, ?_⟩
    unfold open_
    rw [if_neg hne]
    have hr : readAs fs (new filename rl) (basename filename) "Fst".toList = .ok (new filename rl, none) := by
      unfold readAs
      rw [if_neg (by simpa using hk)]
      split
      · rfl
      · show (match fs (pjoin (dirname filename) (unquote (basename filename))) with | .ok f => _ | .missing => _ | .bad => _) = _
        rw [hmiss]
    unfold read load
    show ((readAs fs (new filename rl) (basename filename) "Fst".toList >>= _) >>= _) = _
    rw [hr]
    rfl

/-- C147 does not hold: SubDyn is read as a file of kind HydroDyn.  Asking for SubDyn files only, the SubDyn file is not read; asking
for HydroDyn files only, it is, and then stands for the HydroDyn file in the list of files read. -/
theorem C147_fails : ∃ (fs : FS) (main sub hyd : File) (filename : Str), OpenFast main ∧ Flag main "CompSub" (· = 1) ∧ main.get "SubFile" = some (.str "s.dat".toList) ∧ fs "s.dat".toList = .ok sub ∧
    (∃ d, open_ fs filename ["SD".toList] = .ok d ∧ d.vt .fst = some main ∧ d.vt .sd = none) ∧
    (∃ d, open_ fs filename ["HD".toList] = .ok d ∧ d.vt .fst = some main ∧ d.vt .sd = some sub ∧ d.vt .hd = some hyd ∧ d.inputfiles "HD".toList = some "s.dat".toList) := by
  let main : File := [("InterpOrder".toList, .num 2), ("CompInflow".toList, .num 0), ("CompAero".toList, .num 0), ("CompServo".toList, .num 0), ("CompHydro".toList, .num 1), ("CompSub".toList, .num 1),
    ("CompMooring".toList, .num 0), ("CompElast".toList, .num 1), ("SubFile".toList, .str "s.dat".toList), ("HydroFile".toList, .str "h.dat".toList)]
  let sub : File := [("SDdeltaT".toList, .num 1)]
  let hyd : File := [("WtrDens".toList, .num 1025)]
  let fs : FS := fun p => if p = "a.fst".toList then .ok main else if p = "s.dat".toList then .ok sub else if p = "h.dat".toList then .ok hyd else .missing
  refine ⟨fs, main, sub, hyd, "a.fst".toList, ⟨by decide +kernel, by decide +kernel⟩, ⟨1, by decide +kernel, rfl⟩, by decide +kernel, by decide +kernel, ?_, ?_⟩
  · exact ⟨_, rfl, by decide +kernel, by decide +kernel⟩
  · exact ⟨_, rfl, by decide +kernel, by decide +kernel, by decide +kernel, by decide +kernel⟩

/-- C147 for all kinds of files -/
theorem C147_partial (fs : FS) (filename : Str) (rl : List Str) (d : Deck) (main : File) (hall : "all".toList ∈ rl) (h : open_ fs filename rl = .ok d) (hm : d.vt .fst = some main) (hof : OpenFast main) :
    (Flag main "CompSub" (· = 1) → ∃ rel, main.get "SubFile" = some (.str rel) ∧ d.vt .sd = atPath fs ["SD".toList] filename rel "SD".toList) ∧ (¬ Flag main "CompSub" (· = 1) → d.vt .sd = none) := by
  obtain ⟨d1, k1, f, hf, hr⟩ := open_ok fs filename rl d main h hm hof
  subst hf
  refine ⟨fun ho => ?_, (f.sd.new k1 (by decide)).2⟩
  obtain ⟨rel, h1, h2⟩ := f.sd.1 ho
  refine ⟨rel, h1, ?_⟩
  rw [h2, hr]
  have : (new d.filename rl).readlist = allKinds := if_pos hall
  rw [this]
  have h3 : "HD".toList ∈ allKinds := by decide +kernel
  unfold atPath
  simp only [h3, List.mem_singleton, true_and]

/-- C148 does not hold: no model with AeroDyn 14 is ever read together with its AeroDyn file — when that file is there, reading stops
with an exception. -/
theorem C148_fails :
    (∀ (fs : FS) (filename : Str) (rl : List Str) (d : Deck) (main : File), open_ fs filename rl = .ok d → d.vt .fst = some main → OpenFast main → Flag main "CompAero" (· = 1) → d.vt .ad14 = none) ∧
    ∃ (fs : FS) (main ad : File), fs "a.fst".toList = .ok main ∧ OpenFast main ∧ Flag main "CompAero" (· = 1) ∧ main.get "AeroFile" = some (.str "ad.dat".toList) ∧ fs "ad.dat".toList = .ok ad ∧
      (∃ names, ad.get "AFNames" = some (.list names)) ∧ open_ fs "a.fst".toList ["all".toList] = .error .key ∧
      (∃ b, open_ (fun p => if p = "ad.dat".toList then .ok (("ADBlFile(1)".toList, .str b) :: ad) else fs p) "a.fst".toList ["all".toList] = .error .type) := by
  refine ⟨fun fs filename rl d main h hm hof ho => ?_, ?_⟩
  · obtain ⟨d1, k1, f, _, _⟩ := open_ok fs filename rl d main h hm hof
    obtain ⟨e, _, _, hn⟩ := f.ad14 ho
    by_contra hc
    apply hn hc
    rw [k1.vt _ (by decide)]
    rfl
  · let main : File := [("InterpOrder".toList, .num 2), ("CompInflow".toList, .num 0), ("CompAero".toList, .num 1), ("CompServo".toList, .num 0), ("CompHydro".toList, .num 0), ("CompSub".toList, .num 0),
      ("CompMooring".toList, .num 0), ("CompElast".toList, .num 1), ("AeroFile".toList, .str "ad.dat".toList)]
    let ad : File := [("AFNames".toList, .list ["p.dat".toList])]
    let fs : FS := fun p => if p = "a.fst".toList then .ok main else if p = "ad.dat".toList then .ok ad else .missing
    exact ⟨fs, main, ad, by decide +kernel, ⟨by decide +kernel, by decide +kernel⟩, ⟨1, by decide +kernel, rfl⟩, by decide +kernel, by decide +kernel, ⟨["p.dat".toList], by decide +kernel⟩, by rfl, "b.dat".toList, by rfl⟩

/-- C148 when the AeroDyn 14 file is missing, unused or not asked for: nothing is held for it -/
theorem C148_partial (fs : FS) (filename : Str) (rl : List Str) (d : Deck) (main : File) (h : open_ fs filename rl = .ok d) (hm : d.vt .fst = some main) (hof : OpenFast main) (ho : Flag main "CompAero" (· = 1)) :
    ∃ e, main.get "AeroFile" = some (.str e) ∧ d.vt .ad14 = atPath fs d.readlist filename e "AD".toList := by
  obtain ⟨d1, k1, f, hf, _⟩ := open_ok fs filename rl d main h hm hof
  subst hf
  obtain ⟨e, he, hv, _⟩ := f.ad14 ho
  exact ⟨e, he, hv⟩

/-- C149 does not hold: an object that reads a second model keeps modules of the first one -/
theorem C149_fails : ∃ (fs : FS) (main1 main2 hyd : File) (d1 d2 : Deck), fs "a.fst".toList = .ok main1 ∧ fs "b.fst".toList = .ok main2 ∧ Flag main2 "CompHydro" (· = 0) ∧
    open_ fs "a.fst".toList ["all".toList] = .ok d1 ∧ read fs d1 (some "b.fst".toList) = .ok d2 ∧ d2.vt .fst = some main2 ∧ d2.vt .hd = some hyd ∧ d2.inputfiles "HD".toList = some "h.dat".toList := by
  let main : Int → File := fun n => [("InterpOrder".toList, .num 2), ("CompInflow".toList, .num 0), ("CompAero".toList, .num 0), ("CompServo".toList, .num 0), ("CompHydro".toList, .num n), ("CompSub".toList, .num 0),
    ("CompMooring".toList, .num 0), ("CompElast".toList, .num 1), ("HydroFile".toList, .str "h.dat".toList)]
  let hyd : File := [("WtrDens".toList, .num 1025)]
  let fs : FS := fun p => if p = "a.fst".toList then .ok (main 1) else if p = "b.fst".toList then .ok (main 0) else if p = "h.dat".toList then .ok hyd else .missing
  exact ⟨fs, main 1, main 0, hyd, _, _, by decide +kernel, by decide +kernel, ⟨0, by decide +kernel, rfl⟩, rfl, rfl, by decide +kernel, by decide +kernel, by decide +kernel⟩

/-- C149 for the modules that the second model switches on: they are those of the second model -/
theorem C149_partial (fs : FS) (d d' : Deck) (filename : Str) (main : File) (hall : "all".toList ∉ d.readlist) (h : read fs d (some filename) = .ok d') (hm : d'.vt .fst = some main) (hof : OpenFast main) :
    let M := fun (on : Prop) (slot : Slot) (ref kind : String) => on → ∃ rel, main.get ref = some (.str rel) ∧ d'.vt slot = atPath fs d.readlist filename rel kind.toList
    M (main.get "EDFile" ≠ none) .ed "EDFile" "ED" ∧
    M (Flag main "CompInflow" (0 < ·)) .iw "InflowFile" "IW" ∧
    M (Flag main "CompAero" (fun n => 0 < n ∧ n ≠ 1)) .ad15 "AeroFile" "AD" ∧
    M (Flag main "CompServo" (0 < ·)) .srvd "ServoFile" "SrvD" ∧
    M (Flag main "CompHydro" (· = 1)) .hd "HydroFile" "HD" ∧
    M (Flag main "CompMooring" (· = 1)) .map "MooringFile" "MD" ∧
    M (Flag main "CompMooring" (· = 2)) .moordyn "MooringFile" "MD" ∧
    M (Flag main "CompElast" (· = 2)) .bd "BDBldFile(1)" "BD" := by
  have h : read fs { d with filename := filename } none = .ok d' := h
  obtain ⟨d1, k1, v1, h1, _⟩ := read_ok fs { d with filename := filename } d' main hall h hm hof
  have f := readOF2_ok fs main d1 d' (by rw [k1.readlist]; exact hall) v1 h1
  obtain ⟨l, _, k2⟩ := f.keeps
  have hr : d'.readlist = d.readlist := k2.readlist.trans k1.readlist
  have hf : d'.filename = filename := k2.filename.trans k1.filename
  rw [← hr, ← hf]
  exact ⟨f.ed.1, f.iw.1, f.ad.1, f.srvd.1, f.hd.1, f.map.1, f.moordyn.1, f.bd.1⟩

/-- C150 does not hold: the quoted absolute name of the blade file of AeroDyn, whose own file is in a subdirectory, is not taken as absolute;
that of the blade file of ElastoDyn is -/
theorem C150_fails : ∃ (fs : FS) (main ed ad bld : File) (d : Deck), main.get "AeroFile" = some (.str "\"ad/ad.dat\"".toList) ∧ main.get "EDFile" = some (.str "\"ed/ed.dat\"".toList) ∧
    ad.get "ADBlFile(1)" = some (.str "\"/lib/b.dat\"".toList) ∧ ed.get "BldFile(1)" = some (.str "\"/lib/b.dat\"".toList) ∧ fs "/lib/b.dat".toList = .ok bld ∧
    open_ fs "a.fst".toList ["all".toList] = .ok d ∧ d.vt .fst = some main ∧ d.vt .ad15 = some ad ∧ d.vt .ed = some ed ∧ d.vt .adBld = none ∧ d.vt .edBld = some bld := by
  let main : File := [("InterpOrder".toList, .num 2), ("CompInflow".toList, .num 0), ("CompAero".toList, .num 2), ("CompServo".toList, .num 0), ("CompHydro".toList, .num 0), ("CompSub".toList, .num 0),
    ("CompMooring".toList, .num 0), ("CompElast".toList, .num 1), ("AeroFile".toList, .str "\"ad/ad.dat\"".toList), ("EDFile".toList, .str "\"ed/ed.dat\"".toList)]
  let ed : File := [("BldFile(1)".toList, .str "\"/lib/b.dat\"".toList)]
  let ad : File := [("ADBlFile(1)".toList, .str "\"/lib/b.dat\"".toList), ("AFNames".toList, .list [])]
  let bld : File := [("NumBlNds".toList, .num 3)]
  let fs : FS := fun p => if p = "a.fst".toList then .ok main else if p = "ed/ed.dat".toList then .ok ed else if p = "ad/ad.dat".toList then .ok ad else if p = "/lib/b.dat".toList then .ok bld else .missing
  have hok : (open_ fs "a.fst".toList ["all".toList]).toOption.map (fun d => [d.vt .fst, d.vt .ad15, d.vt .ed, d.vt .adBld, d.vt .edBld]) = some [some main, some ad, some ed, none, some bld] := by
    decide +kernel
  obtain ⟨d, hd, hv⟩ := ok_of_map _ _ _ hok
  simp only [List.cons.injEq, and_true] at hv
  exact ⟨fs, main, ed, ad, bld, d, by decide +kernel, by decide +kernel, by decide +kernel, by decide +kernel, by decide +kernel, hd, hv⟩

/-- C150 when the AeroDyn file is in the directory of the main file: any name of its blade file and its polars is followed, absolute or not -/
theorem C150_partial (fs : FS) (filename : Str) (rl : List Str) (d : Deck) (main : File) (h : open_ fs filename rl = .ok d) (hm : d.vt .fst = some main) (hof : OpenFast main)
    (ad : File) (had : d.vt .ad15 = some ad) (e : Str) (he : main.get "AeroFile" = some (.str e)) (hd : '/' ∉ e) :
    (∀ b, ad.get "ADBlFile(1)" = some (.str b) → d.vt .adBld = atPath fs d.readlist filename (unquote b) "ADbld".toList) ∧
    (∀ names, ad.get "AFNames" = some (.list names) → d.af = names.map (fun n => atPath fs d.readlist filename (unquote n) "AF".toList)) := by
  obtain ⟨d1, k1, f, hf, _⟩ := open_ok fs filename rl d main h hm hof
  subst hf
  have hon : Flag main "CompAero" (fun n => 0 < n ∧ n ≠ 1) := by
    by_contra hc
    rw [f.ad.2 hc, k1.vt _ (by decide)] at had
    cases had
  obtain ⟨e', he', bl, v, names, h1, h2, h3, h4, h5⟩ := f.adFiles hon ad had
  rw [he] at he'
  cases he'
  have hj : ∀ n, pjoin (dirname e) n = n := by
    intro n
    rw [dirname_plain e hd]
    unfold pjoin
    split <;> simp
  refine ⟨fun b hb => ?_, fun l hl => ?_⟩
  · rw [h1] at hb
    cases hb
    rw [h4, hj]
    apply atPath_congr
    rw [unquote_unquote]
  · rw [h2] at hl
    cases hl
    cases h3
    rw [h5]
    refine List.map_congr_left (fun n _ => ?_)
    rw [hj]

/-! ### A model -/

namespace Toy

def main : File :=
  [("InterpOrder".toList, .num 2), ("CompInflow".toList, .num 1), ("CompAero".toList, .num 2), ("CompServo".toList, .num 0), ("CompHydro".toList, .num 0), ("CompSub".toList, .num 0),
    ("CompMooring".toList, .num 0), ("CompElast".toList, .num 2), ("EDFile".toList, .str "\"ed/ed.dat\"".toList), ("InflowFile".toList, .str "\"iw.dat\"".toList),
    ("AeroFile".toList, .str "\"ad/ad.dat\"".toList), ("ServoFile".toList, .str "unused".toList), ("HydroFile".toList, .str "unused".toList), ("SubFile".toList, .str "unused".toList),
    ("MooringFile".toList, .str "unused".toList), ("BDBldFile(1)".toList, .str "\"bd/bd.dat\"".toList)]

def ed : File := [("TwrFile".toList, .str "\"t.dat\"".toList), ("BldFile1".toList, .str "\"b.dat\"".toList)]

def ad : File := [("ADBlFile(1)".toList, .str "\"b.dat\"".toList), ("AFNames".toList, .list ["\"p/1.dat\"".toList, "\"p/2.dat\"".toList, "\"p/3.dat\"".toList])]

def bd : File := [("BldFile".toList, .str "\"../b.dat\"".toList)]

def leaf (n : Int) : File := [("N".toList, .num n)]

def polar : File := [("NumCoords".toList, .str "@\"1.txt\"".toList)]

/-- the wind file and the second polar are missing; if `bad`, the third polar cannot be read -/
def fs (bad : Bool) : FS := fun p =>
  if p = "m/a.fst".toList then .ok main
  else if p = "m/ed/ed.dat".toList then .ok ed
  else if p = "m/ad/ad.dat".toList then .ok ad
  else if p = "m/bd/bd.dat".toList then .ok bd
  else if p = "m/ed/t.dat".toList then .ok (leaf 1)
  else if p = "m/ed/b.dat".toList then .ok (leaf 2)
  else if p = "m/ad/b.dat".toList then .ok (leaf 3)
  else if p = "m/bd/../b.dat".toList then .ok (leaf 4)
  else if p = "m/ad/p/1.dat".toList then .ok polar
  else if p = "m/ad/p/3.dat".toList then (if bad then .bad else .ok polar)
  else .missing

/-- C142, C143, C144, C145: the model can be read, and holds these files -/
example : ∃ d, open_ (fs true) "m/a.fst".toList ["all".toList] = .ok d ∧ d.vt .fst = some main ∧ OpenFast main ∧ d.vt .ed = some ed ∧ d.vt .iw = none ∧ d.vt .edTwr = some (leaf 1) ∧
    d.vt .edBld = some (leaf 2) ∧ d.vt .ad15 = some ad ∧ d.vt .adBld = some (leaf 3) ∧ d.vt .bdBld = some (leaf 4) ∧ d.af = [some polar, none, none] ∧
    d.inputfiles "AF".toList = some "m/ad/p/1.dat".toList ∧ Written "\"ed/ed.dat\"".toList "ed/ed.dat".toList ∧ Relative "ed/ed.dat".toList :=
  ⟨_, rfl, by decide +kernel, ⟨by decide +kernel, by decide +kernel⟩, by decide +kernel, by decide +kernel, by decide +kernel, by decide +kernel, by decide +kernel, by decide +kernel, by decide +kernel,
    by decide +kernel, by decide +kernel, ⟨by decide +kernel, by decide +kernel⟩, by unfold Relative; decide +kernel⟩

/-- C145: only some kinds of files -/
example : ∃ d, open_ (fs true) "m/a.fst".toList ["ED".toList, "EDtwr".toList] = .ok d ∧ d.vt .ed = some ed ∧ d.vt .edTwr = some (leaf 1) ∧ d.vt .edBld = none ∧ d.vt .ad15 = none ∧ d.inputfiles "AD".toList = none :=
  ⟨_, rfl, by decide +kernel, by decide +kernel, by decide +kernel, by decide +kernel, by decide +kernel⟩

/-- C146: the hypotheses hold -/
example : (∀ p, fs false p ≠ .bad) ∧ atPath (fs false) ["Fst".toList] "m/a.fst".toList (basename "m/a.fst".toList) "Fst".toList = some main ∧ Complete main ∧ Sound (fs false) "m/a.fst".toList main := by
  refine ⟨?_, by decide +kernel, ⟨?_, ?_, ?_⟩, ?_, ?_⟩
  · intro p
    unfold fs
    repeat' split
    all_goals first | (rename_i h; exact absurd h (by decide)) | (intro h; cases h)
  · intro k hk
    simp only [List.mem_cons, List.not_mem_nil, or_false] at hk
    rcases hk with rfl | rfl | rfl | rfl | rfl | rfl | rfl
    all_goals first | exact ⟨0, by decide +kernel, trivial⟩ | exact ⟨1, by decide +kernel, trivial⟩ | exact ⟨2, by decide +kernel, trivial⟩
  · intro k hk
    simp only [List.mem_cons, List.not_mem_nil, or_false] at hk
    rcases hk with rfl | rfl | rfl | rfl | rfl | rfl | rfl | rfl
    all_goals exact ⟨_, rfl⟩
  · rintro ⟨n, hn, h1⟩
    have : main.get "CompAero" = some (.num 2) := by decide +kernel
    rw [this] at hn
    cases hn
    cases h1
  · intro e he b hb
    have h1 : main.get "BDBldFile(1)" = some (.str "\"bd/bd.dat\"".toList) := by decide +kernel
    rw [h1] at he
    cases he
    have h2 : fs false (pjoin (dirname "m/a.fst".toList) (unquote "\"bd/bd.dat\"".toList)) = .ok bd := by decide +kernel
    rw [h2] at hb
    cases hb
    exact ⟨"\"../b.dat\"".toList, by decide +kernel⟩
  · intro e he a ha
    have h1 : main.get "AeroFile" = some (.str "\"ad/ad.dat\"".toList) := by decide +kernel
    rw [h1] at he
    cases he
    have h2 : fs false (pjoin (dirname "m/a.fst".toList) (unquote "\"ad/ad.dat\"".toList)) = .ok ad := by decide +kernel
    rw [h2] at ha
    cases ha
    refine ⟨_, _, rfl, rfl, ?_⟩
    intro n hn f hf
    simp only [List.mem_cons, List.not_mem_nil, or_false] at hn
    have e1 : fs false (pjoin (dirname "m/a.fst".toList) (unquote (pjoin (dirname "\"ad/ad.dat\"".toList) "\"p/1.dat\"".toList))) = .ok polar := by decide +kernel
    have e2 : fs false (pjoin (dirname "m/a.fst".toList) (unquote (pjoin (dirname "\"ad/ad.dat\"".toList) "\"p/2.dat\"".toList))) = .missing := by decide +kernel
    have e3 : fs false (pjoin (dirname "m/a.fst".toList) (unquote (pjoin (dirname "\"ad/ad.dat\"".toList) "\"p/3.dat\"".toList))) = .ok polar := by decide +kernel
    have hp : ∃ v, polar.get "NumCoords" = some v ∧ ∀ s, v = .str s → unquote s ≠ [] := by
      refine ⟨.str "@\"1.txt\"".toList, by decide +kernel, fun s hs => ?_⟩
      cases hs
      decide +kernel
    rcases hn with rfl | rfl | rfl
    · rw [e1] at hf
      cases hf
      exact hp
    · rw [e2] at hf
      cases hf
    · rw [e3] at hf
      cases hf
      exact hp

def main2 (n : Int) : File :=
  [("InterpOrder".toList, .num 2), ("CompInflow".toList, .num 0), ("CompAero".toList, .num n), ("CompServo".toList, .num 0), ("CompHydro".toList, .num 1), ("CompSub".toList, .num 1),
    ("CompMooring".toList, .num 0), ("CompElast".toList, .num 1), ("AeroFile".toList, .str "\"ad.dat\"".toList), ("SubFile".toList, .str "s.dat".toList), ("HydroFile".toList, .str "NA".toList)]

def ad2 : File := [("ADBlFile(1)".toList, .str "\"/lib/b.dat\"".toList), ("AFNames".toList, .list ["\"/lib/p.dat\"".toList, "p.dat".toList])]

def fs2 (n : Int) : FS := fun p =>
  if p = "b.fst".toList then .ok (main2 n)
  else if p = "ad.dat".toList then (if n = 2 then .ok ad2 else .missing)
  else if p = "s.dat".toList then .ok (leaf 1)
  else if p = "/lib/b.dat".toList then .ok (leaf 2)
  else if p = "/lib/p.dat".toList then .ok polar
  else .missing

/-- C147_partial, C150_partial -/
example : ∃ d, open_ (fs2 2) "b.fst".toList ["all".toList] = .ok d ∧ d.vt .fst = some (main2 2) ∧ OpenFast (main2 2) ∧ d.vt .sd = some (leaf 1) ∧ d.vt .ad15 = some ad2 ∧ d.vt .adBld = some (leaf 2) ∧
    d.af = [some polar, none] ∧ d.vt .hd = none := by
  have hok : (open_ (fs2 2) "b.fst".toList ["all".toList]).toOption.map (fun d => [d.vt .fst, d.vt .sd, d.vt .ad15, d.vt .adBld, d.vt .hd] ++ d.af) =
      some [some (main2 2), some (leaf 1), some ad2, some (leaf 2), none, some polar, none] := by decide +kernel
  obtain ⟨d, hd, hv⟩ := ok_of_map _ _ _ hok
  simp only [List.cons_append, List.nil_append, List.cons.injEq] at hv
  obtain ⟨h1, h2, h3, h4, h5, h6⟩ := hv
  exact ⟨d, hd, h1, ⟨by decide +kernel, by decide +kernel⟩, h2, h3, h4, h6, h5⟩

/-- C148_partial, and C149_partial for an object which held another model -/
example : ∃ d d', open_ (fs2 1) "b.fst".toList ["all".toList] = .ok d ∧ d.vt .fst = some (main2 1) ∧ Flag (main2 1) "CompAero" (· = 1) ∧ d.vt .ad14 = none ∧ d.vt .sd = some (leaf 1) ∧
    read (fs true) d (some "m/a.fst".toList) = .ok d' ∧ d'.vt .fst = some main ∧ d'.vt .ed = some ed ∧ d'.vt .sd = some (leaf 1) := by
  have hok : (open_ (fs2 1) "b.fst".toList ["all".toList]).toOption.map (fun d => [d.vt .fst, d.vt .ad14, d.vt .sd] ++
      (match read (fs true) d (some "m/a.fst".toList) with | .ok d' => [d'.vt .fst, d'.vt .ed, d'.vt .sd] | .error _ => [])) =
      some [some (main2 1), none, some (leaf 1), some main, some ed, some (leaf 1)] := by decide +kernel
  obtain ⟨d, hd, hv⟩ := ok_of_map _ _ _ hok
  cases hr : read (fs true) d (some "m/a.fst".toList) with
  | error e =>
    rw [hr] at hv
    simp at hv
  | ok d' =>
    rw [hr] at hv
    simp only [List.cons_append, List.nil_append, List.cons.injEq, and_true] at hv
    obtain ⟨h1, h2, h3, h4, h5, h6⟩ := hv
    exact ⟨d, d', hd, h1, ⟨1, by decide +kernel, rfl⟩, h2, h3, hr, h4, h5, h6⟩

end Toy

end Verif.DeckRead
