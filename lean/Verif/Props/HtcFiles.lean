import Verif.Lemmas.HtcFiles
import Verif.Lemmas.HtcQuery
import Verif.Lemmas.Path
/-!
# The files that a HAWC2 file names

Properties C251 to C254.
-/
namespace Verif.HtcFiles
open Verif.Py Verif.HtcEdit Verif.HtcQuery

/-- **C251** fails: the lines of the wakes section do not matter for the input files -/
theorem C251_fails (names : List Str) (extra : Option (Item Val) → List (Option Val)) (fix : Str → Str) (d : Kids Val) (w w' : Item Val) :
    inputFiles names extra fix (put "wakes".toList w d) = inputFiles names extra fix (put "wakes".toList w' d) := by
  have hl : ∀ k, k ≠ "wakes".toList → look k (put "wakes".toList w d) = look k (put "wakes".toList w' d) := by
    intro k hk
    rw [look_put, look_put, if_neg hk, if_neg hk]
  have hw : wakeFiles (put "wakes".toList w d) = wakeFiles (put "wakes".toList w' d) := by
    have e1 : look "wakes".toList (put "wakes".toList w d) = some w := by rw [look_put, if_pos rfl]
    have e2 : look "wakes".toList (put "wakes".toList w' d) = some w' := by rw [look_put, if_pos rfl]
    rw [wakeFiles, wakeFiles, e1, e2, hl "wind".toList (by decide +kernel)]
  have hs : ∀ k, k ≠ "wakes".toList → ∀ g, inSec (put "wakes".toList w d) k g = inSec (put "wakes".toList w' d) k g := by
    intro k hk g
    rw [inSec, inSec, hl k hk]
  rw [inputFiles, inputFiles, hw, structFiles, structFiles, hs _ (by decide +kernel), aeroFiles, aeroFiles, hs _ (by decide +kernel),
    dllFiles, dllFiles, hs _ (by decide +kernel), windFiles, windFiles, hs _ (by decide +kernel), hydroFiles, hydroFiles, hs _ (by decide +kernel),
    soilFiles, soilFiles, hs _ (by decide +kernel), forceFiles, forceFiles, hs _ (by decide +kernel), hl "dll".toList (by decide +kernel)]

/-- **C251**: `input_files` has every file that is named by one of the lines outside of the wakes section, the files themselves, the files of all
main bodies, and all DLLs, also for 64 bits.  (Missing for the full property: the lines of the wakes section.) -/
theorem C251_partial (names : List Str) (extra : Option (Item Val) → List (Option Val)) (fix : Str → Str) (d : Kids Val) (l : List Str)
    (h : inputFiles names extra fix d = .ok l) :
    (∀ n ∈ names, n ≠ [] → fix n ∈ l) ∧
    (∀ q ∈ inputLines, ∀ f, Names d q.1 q.2 f → fix f ∈ l) ∧
    (∀ kids k b bkids f, HasSec d "new_htc_structure".toList kids → (k, b) ∈ kids → "main_body".toList <+: k → kidsOf b = some bkids →
      (Names bkids ["timoschenko_input".toList, "filename".toList] 0 f ∨ Names bkids ["external_bladedata_dll".toList] 2 f) → fix f ∈ l) ∧
    (∀ kids k b bkids s e, HasSec d "dll".toList kids → (k, b) ∈ kids → kidsOf b = some bkids →
      Names bkids ["filename".toList] 0 (s ++ e) → WriteTest.splitext (s ++ e) = (s, e) →
      fix (s ++ e) ∈ l ∧ fix (s ++ "_64".toList ++ e) ∈ l) := by
  rw [inputFiles] at h
  split at h
  · cases h
  rename_i r hr
  have key : ∀ e, e ∈ [Except.ok (names.map fun n => some (.text n)), structFiles d, aeroFiles d, dllFiles d, windFiles d, wakeFiles d, hydroFiles d,
      soilFiles d, .ok (extra (look "dll".toList d)), .ok (forceFiles d)] → ∀ f, f ≠ [] → (∀ a, e = Except.ok a → some (Val.text f) ∈ a) → fix f ∈ l :=
    fun e he f hne hv => paths_mem fix r l h f hne (catE_has _ r hr e he _ hv)
  have hsec : ∀ k kids g, HasSec d k kids → inSec d k g = g kids := by
    intro k kids g hs
    obtain ⟨x, h1, h2⟩ := hs
    rw [inSec, look_find, h1]
    rcases h2 with ⟨n, bc, ec, rfl⟩ | ⟨n, bc, ec, ss, rfl⟩ <;> rfl
  refine ⟨?_, ?_, ?_, ?_⟩
  · intro n hn hne
    refine key (.ok (names.map fun n => some (.text n))) (by simp) n hne ?_
    intro a ha
    simp only [Except.ok.injEq] at ha
    subst ha
    exact List.mem_map.2 ⟨n, hn, rfl⟩
  · intro q hq f hf
    have hne := hf.1
    simp only [inputLines, List.map_cons, List.map_nil, List.mem_cons, List.not_mem_nil, or_false] at hq
    have aero : ∀ (k : Str) (p : List Str) (i : Nat), Names d ("aero".toList :: k :: p) i f →
        (∀ kids a, Names kids (k :: p) i f → catE
          [seqE [needAt kids "ae_filename".toList, needAt kids "pc_filename".toList, getAt kids "external_bladedata_dll".toList 2,
            getAt kids "output_profile_coef_filename".toList 0],
           inSec kids "dynstall_ateflap".toList fun s => seqE [getAt s "flap".toList 2],
           inSec kids "bemwake_method".toList fun s => seqE [getAt s "a-ct-filename".toList 0]] = Except.ok a → some (Val.text f) ∈ a) → fix f ∈ l := by
      intro k p i hn hg
      refine key (aeroFiles d) (by simp) f hne ?_
      intro a ha
      rw [aeroFiles] at ha
      obtain ⟨kids, e, hk⟩ := inSec_names hn fun a => catE
          [seqE [needAt a "ae_filename".toList, needAt a "pc_filename".toList, getAt a "external_bladedata_dll".toList 2,
            getAt a "output_profile_coef_filename".toList 0],
           inSec a "dynstall_ateflap".toList fun s => seqE [getAt s "flap".toList 2],
           inSec a "bemwake_method".toList fun s => seqE [getAt s "a-ct-filename".toList 0]]
      rw [e] at ha
      exact hg kids a hk ha
    have one : ∀ (k k' : Str) (i : Nat) (g : Kids Val → Except Err (List (Option Val))), Names d [k, k'] i f →
        (∀ kids a, Names kids [k'] i f → g kids = .ok a → some (Val.text f) ∈ a) → ∀ a, inSec d k g = .ok a → some (Val.text f) ∈ a := by
      intro k k' i g hn hg a ha
      obtain ⟨kids, e, hk⟩ := inSec_names hn g
      rw [e] at ha
      exact hg kids a hk ha
    have two : ∀ (d : Kids Val) (k1 k2 k' : Str) (i : Nat) (g : Kids Val → Except Err (List (Option Val))), Names d [k1, k2, k'] i f →
        (∀ kids a, Names kids [k'] i f → g kids = .ok a → some (Val.text f) ∈ a) → ∀ a, (inSec d k1 fun h => inSec h k2 g) = .ok a → some (Val.text f) ∈ a := by
      intro d k1 k2 k' i g hn hg a ha
      obtain ⟨kids, e, hk⟩ := inSec_names hn fun h => inSec h k2 g
      rw [e] at ha
      obtain ⟨kids2, e2, hk2⟩ := inSec_names hk g
      rw [e2] at ha
      exact hg kids2 a hk2 ha
    rcases hq with rfl | rfl | rfl | rfl | rfl | rfl | rfl | rfl | rfl | rfl | rfl | rfl | rfl
    · exact aero _ _ _ hf fun kids a hk ha => catE_has _ a ha (seqE [needAt kids "ae_filename".toList, needAt kids "pc_filename".toList,
        getAt kids "external_bladedata_dll".toList 2, getAt kids "output_profile_coef_filename".toList 0]) (List.mem_cons_self ..) _ fun b hb =>
        seqE_has _ b hb _ (by rw [needAt_names hk]; simp)
    · exact aero _ _ _ hf fun kids a hk ha => catE_has _ a ha (seqE [needAt kids "ae_filename".toList, needAt kids "pc_filename".toList,
        getAt kids "external_bladedata_dll".toList 2, getAt kids "output_profile_coef_filename".toList 0]) (List.mem_cons_self ..) _ fun b hb =>
        seqE_has _ b hb _ (by rw [needAt_names hk]; simp)
    · exact aero _ _ _ hf fun kids a hk ha => catE_has _ a ha (seqE [needAt kids "ae_filename".toList, needAt kids "pc_filename".toList,
        getAt kids "external_bladedata_dll".toList 2, getAt kids "output_profile_coef_filename".toList 0]) (List.mem_cons_self ..) _ fun b hb =>
        seqE_has _ b hb _ (by rw [getAt_names hk]; simp)
    · exact aero _ _ _ hf fun kids a hk ha => catE_has _ a ha (seqE [needAt kids "ae_filename".toList, needAt kids "pc_filename".toList,
        getAt kids "external_bladedata_dll".toList 2, getAt kids "output_profile_coef_filename".toList 0]) (List.mem_cons_self ..) _ fun b hb =>
        seqE_has _ b hb _ (by rw [getAt_names hk]; simp)
    · refine aero _ _ _ hf fun kids a hk ha => catE_has _ a ha (inSec kids "dynstall_ateflap".toList fun s => seqE [getAt s "flap".toList 2]) (by simp) _ fun b hb => ?_
      obtain ⟨kids2, e2, hk2⟩ := inSec_names hk fun s => seqE [getAt s "flap".toList 2]
      exact seqE_has _ b (e2 ▸ hb) _ (by rw [getAt_names hk2]; simp)
    · refine aero _ _ _ hf fun kids a hk ha => catE_has _ a ha (inSec kids "bemwake_method".toList fun s => seqE [getAt s "a-ct-filename".toList 0]) (by simp) _ fun b hb => ?_
      obtain ⟨kids2, e2, hk2⟩ := inSec_names hk fun s => seqE [getAt s "a-ct-filename".toList 0]
      exact seqE_has _ b (e2 ▸ hb) _ (by rw [getAt_names hk2]; simp)
    · exact key (windFiles d) (by simp) f hne (one _ _ _ _ hf fun kids a hk ha => seqE_has _ a ha _ (by rw [getAt_names hk]; simp))
    · exact key (windFiles d) (by simp) f hne (one _ _ _ _ hf fun kids a hk ha => seqE_has _ a ha _ (by rw [getAt_names hk]; simp))
    · exact key (windFiles d) (by simp) f hne (one _ _ _ _ hf fun kids a hk ha => seqE_has _ a ha _ (by rw [getAt_names hk]; simp))
    · exact key (hydroFiles d) (by simp) f hne (two d _ _ _ _ _ hf fun kids a hk ha => seqE_has _ a ha _ (by rw [getAt_names hk]; simp))
    · exact key (hydroFiles d) (by simp) f hne (two d _ _ _ _ _ hf fun kids a hk ha => seqE_has _ a ha _ (by rw [getAt_names hk]; simp))
    · exact key (soilFiles d) (by simp) f hne (two d _ _ _ _ _ hf fun kids a hk ha => seqE_has _ a ha _ (by rw [getAt_names hk]; simp))
    · refine key (.ok (forceFiles d)) (by simp) f hne ?_
      intro a ha
      simp only [Except.ok.injEq] at ha
      subst ha
      obtain ⟨kids, e, hk⟩ := inSec_names hf fun f => inSec f "dll".toList fun l => seqE [needAt l "dll".toList]
      obtain ⟨kids2, e2, hk2⟩ := inSec_names hk fun l => seqE [needAt l "dll".toList]
      rw [forceFiles, e, e2, needAt_names hk2]
      simp [seqE]
  · intro kids k b bkids f hs hm hp hb hf
    have hne : f ≠ [] := hf.elim (·.1) (·.1)
    refine key (structFiles d) (by simp) f hne ?_
    intro a ha
    rw [structFiles, hsec _ kids _ hs] at ha
    refine catE_has _ a ha (bodyFiles (k, b)) (List.mem_map.2 ⟨(k, b), List.mem_filter.2 ⟨hm, List.isPrefixOf_iff_prefix.2 hp⟩, rfl⟩) _ ?_
    intro a2 ha2
    rw [bodyFiles] at ha2
    simp only [hb] at ha2
    rcases hf with hf | hf
    · refine catE_has _ a2 ha2 (inSec bkids "timoschenko_input".toList fun t => seqE [needAt t "filename".toList]) (by simp) _ ?_
      intro a3 ha3
      obtain ⟨kids2, e2, hk2⟩ := inSec_names hf fun t => seqE [needAt t "filename".toList]
      exact seqE_has _ a3 (e2 ▸ ha3) _ (by rw [needAt_names hk2]; simp)
    · refine catE_has _ a2 ha2 (seqE [getAt bkids "external_bladedata_dll".toList 2]) (by simp) _ ?_
      intro a3 ha3
      exact seqE_has _ a3 ha3 _ (by rw [getAt_names hf]; simp)
  · intro kids k b bkids s e hs hm hb hf hsp
    have hd : dllFile (k, b) = .ok [some (.text (s ++ e)), some (.text (s ++ "_64".toList ++ e))] := by
      obtain ⟨-, vals, h1, h2⟩ := id hf
      obtain ⟨n, c, h3⟩ := valuesAt_one bkids _ vals h1
      rw [dllFile]
      simp only [hb]
      rw [h3, if_neg (by simp), needAt_names hf]
      simp only [hsp]
    have : ∀ f, f ≠ [] → some (Val.text f) ∈ [some (Val.text (s ++ e)), some (.text (s ++ "_64".toList ++ e))] → fix f ∈ l := by
      intro f hne hfm
      refine key (dllFiles d) (by simp) f hne ?_
      intro a ha
      rw [dllFiles, hsec _ kids _ hs] at ha
      refine catE_has _ a ha (dllFile (k, b)) (List.mem_map.2 ⟨(k, b), hm, rfl⟩) _ ?_
      intro a2 ha2
      rw [hd] at ha2
      simp only [Except.ok.injEq] at ha2
      subst ha2
      exact hfm
    exact ⟨this _ hf.1 (by simp), this _ (by simp) (by simp)⟩

/-- **C252**: the result files are those of all output sections in their order, each by its format; other sections, also the outputs at one time,
have none -/
theorem C252 (d : Kids Val) (fmt : Str → Option Str) (r : Str → Str) (hd : (d.map Prod.fst).Nodup)
    (hk : ∀ k ∈ d.map Prod.fst, '.' ∉ k ∧ '/' ∉ k)
    (h : ∀ q ∈ d, "output".toList <+: nameOf q.2 → ¬ "output_at_time".toList <+: nameOf q.2 → Output q.2 (fmt q.1) (r q.1)) :
    resFiles d = .ok (d.flatMap fun q =>
      if "output".toList <+: nameOf q.2 ∧ ¬ "output_at_time".toList <+: nameOf q.2 then resultFiles (fmt q.1) (r q.1) else []) := by
  refine catE_flatMap _ _ d ?_
  intro q hq
  obtain ⟨h1, h2⟩ := hk q.1 (List.mem_map.2 ⟨q, hq, rfl⟩)
  rw [ofKey, getItem_key d q.1 h1 h2, look_of_mem d hd q hq]
  simp only [startsWith, List.isPrefixOf_iff_prefix]
  by_cases ho : "output".toList <+: nameOf q.2 ∧ ¬ "output_at_time".toList <+: nameOf q.2
  · rw [if_pos ho, if_pos ho]
    obtain ⟨kids, ws, e1, e2, e3⟩ := h q hq ho.1 ho.2
    obtain ⟨n, c, e4⟩ := valuesAt_one kids _ _ e2
    have hn : needAt kids "filename".toList = .ok (some (.text (r q.1))) := by
      rw [needAt, e4]; rfl
    have hg : getAt kids "data_format".toList 0 = .ok ((fmt q.1).map Val.text) := by
      cases hf : fmt q.1 with
      | none =>
        rw [hf] at e3
        rw [getAt, (look_none_iff _ kids).2 e3]
        rfl
      | some t =>
        rw [hf] at e3
        obtain ⟨vs, e3⟩ := e3
        obtain ⟨n', c', e5⟩ := valuesAt_one kids _ _ e3
        rw [getAt, e5]
        rfl
    rw [resOf, e1]
    simp only [hn, hg]
    have hm : ∀ t : Str, (fmt q.1).map Val.text = some (.text t) ↔ fmt q.1 = some t := by
      intro t
      cases fmt q.1 <;> simp
    rw [resultFiles]
    simp only [hm, named]
    split
    · rfl
    · split <;> rfl
  · rw [if_neg ho, if_neg ho]

/-- **C253**: `output_files` has, in lower case, every file named by one of the lines, the result files, and the files of the outputs at one time;
for an eigenanalysis it has the modes in the same directory -/
theorem C253 (d : Kids Val) (l : List Str) (h : outputFiles d = .ok l) :
    (∀ p ∈ outputLines, ∀ f, Names d p 0 f → lower f ∈ l) ∧
    (∀ rs, resFiles d = .ok rs → ∀ f ∈ rs, f ≠ [] → lower f ∈ l) ∧
    (∀ k ∈ d.map Prod.fst, "output_at_time".toList <+: k → '.' ∉ k → '/' ∉ k → ∀ f, Names d [k, "filename".toList] 0 f → lower (f ++ ".dat".toList) ∈ l) ∧
    (∀ k, (k = "system_eigenanalysis".toList ∨ k = "structure_eigenanalysis_file_name".toList) → ∀ f, Names d ["new_htc_structure".toList, k] 0 f →
      lower (pjoin (dirname f) "mode*.dat".toList) ∈ l) := by
  rw [outputFiles] at h
  split at h
  · cases h
  rename_i r hr
  have key : ∀ e, e ∈ [catE (outPaths.map (pathFile d)), eigenFiles d "system_eigenanalysis".toList, eigenFiles d "structure_eigenanalysis_file_name".toList,
      texts (resFiles d), texts (timeFiles d)] → ∀ f, f ≠ [] → (∀ a, e = Except.ok a → some (Val.text f) ∈ a) → lower f ∈ l :=
    fun e he f hne hv => paths_mem lower r l h f hne (catE_has _ r hr e he _ hv)
  have heig : ∀ k f, Names d ["new_htc_structure".toList, k] 0 f →
      eigenFiles d k = .ok [some (.text f), some (.text (pjoin (dirname f) "mode*.dat".toList))] := by
    intro k f hf
    obtain ⟨hne, vals, h1, h2⟩ := hf
    obtain ⟨x, kids, h3, h4, h5⟩ := valuesAt_more d _ k [] vals h1
    rw [eigenFiles, h3]
    simp only [Option.bind_some, h4]
    rw [getAt_names ⟨hne, vals, h5, h2⟩]
  have hpath : ∀ p t, t ∈ outPaths → PathText p t → ∀ f, Names d p 0 f → lower f ∈ l := by
    intro p t ht hp f hf
    refine key (catE (outPaths.map (pathFile d))) (by simp) f hf.1 ?_
    intro a ha
    refine catE_has _ a ha (pathFile d t) (List.mem_map.2 ⟨t, ht, rfl⟩) _ ?_
    intro a2 ha2
    rw [pathFile_names hp hf] at ha2
    simp only [Except.ok.injEq] at ha2
    subst ha2
    simp
  have p2 : ∀ a b t : Str, t = a ++ '/' :: b → ('.' ∉ a ∧ '/' ∉ a ∧ '.' ∉ b ∧ '/' ∉ b) → PathText [a, b] t := by
    intro a b t e hh
    subst e
    exact .slash a [b] b hh.1 hh.2.1 (.one b hh.2.2.1 hh.2.2.2)
  have p3 : ∀ a b c t : Str, t = a ++ '/' :: (b ++ '/' :: c) → ('.' ∉ a ∧ '/' ∉ a ∧ '.' ∉ b ∧ '/' ∉ b ∧ '.' ∉ c ∧ '/' ∉ c) → PathText [a, b, c] t := by
    intro a b c t e hh
    subst e
    exact .slash a [b, c] _ hh.1 hh.2.1 (.slash b [c] c hh.2.2.1 hh.2.2.2.1 (.one c hh.2.2.2.2.1 hh.2.2.2.2.2))
  refine ⟨?_, ?_, ?_, ?_⟩
  · intro p hp f hf
    simp only [outputLines, List.map_cons, List.map_nil, List.mem_cons, List.not_mem_nil, or_false] at hp
    rcases hp with rfl | rfl | rfl | rfl | rfl | rfl | rfl | rfl | rfl | rfl | rfl | rfl | rfl
    · exact hpath _ "simulation/logfile".toList (by decide +kernel) (p2 _ _ _ (by decide +kernel) (by decide +kernel)) f hf
    · exact hpath _ "simulation/animation".toList (by decide +kernel) (p2 _ _ _ (by decide +kernel) (by decide +kernel)) f hf
    · exact hpath _ "simulation/visualization".toList (by decide +kernel) (p2 _ _ _ (by decide +kernel) (by decide +kernel)) f hf
    · exact hpath _ "new_htc_structure/beam_output_file_name".toList (by decide +kernel) (p2 _ _ _ (by decide +kernel) (by decide +kernel)) f hf
    · exact hpath _ "new_htc_structure/body_output_file_name".toList (by decide +kernel) (p2 _ _ _ (by decide +kernel) (by decide +kernel)) f hf
    · exact hpath _ "new_htc_structure/struct_inertia_output_file_name".toList (by decide +kernel) (p2 _ _ _ (by decide +kernel) (by decide +kernel)) f hf
    · exact hpath _ "new_htc_structure/body_eigenanalysis_file_name".toList (by decide +kernel) (p2 _ _ _ (by decide +kernel) (by decide +kernel)) f hf
    · exact hpath _ "new_htc_structure/constraint_output_file_name".toList (by decide +kernel) (p2 _ _ _ (by decide +kernel) (by decide +kernel)) f hf
    · refine key (eigenFiles d "system_eigenanalysis".toList) (by simp) f hf.1 fun a ha => ?_
      rw [heig _ f hf] at ha
      simp only [Except.ok.injEq] at ha
      subst ha
      simp
    · refine key (eigenFiles d "structure_eigenanalysis_file_name".toList) (by simp) f hf.1 fun a ha => ?_
      rw [heig _ f hf] at ha
      simp only [Except.ok.injEq] at ha
      subst ha
      simp
    · exact hpath _ "wind/turb_export/filename_u".toList (by decide +kernel) (p3 _ _ _ _ (by decide +kernel) (by decide +kernel)) f hf
    · exact hpath _ "wind/turb_export/filename_v".toList (by decide +kernel) (p3 _ _ _ _ (by decide +kernel) (by decide +kernel)) f hf
    · exact hpath _ "wind/turb_export/filename_w".toList (by decide +kernel) (p3 _ _ _ _ (by decide +kernel) (by decide +kernel)) f hf
  · intro rs hrs f hf hne
    refine key (texts (resFiles d)) (by simp) f hne fun a ha => ?_
    rw [hrs] at ha
    simp only [texts, Except.ok.injEq] at ha
    subst ha
    exact List.mem_map.2 ⟨f, hf, rfl⟩
  · intro k hk hp h1 h2 f hf
    refine key (texts (timeFiles d)) (by simp) _ (by simp) fun a ha => ?_
    cases ht : timeFiles d with
    | error e => rw [ht] at ha; cases ha
    | ok ts =>
      rw [ht] at ha
      simp only [texts, Except.ok.injEq] at ha
      subst ha
      refine List.mem_map.2 ⟨_, ?_, rfl⟩
      rw [timeFiles] at ht
      obtain ⟨q, hq, rfl⟩ := List.mem_map.1 hk
      obtain ⟨a2, e1, e2⟩ := catE_mem _ ts ht _ (List.mem_map.2 ⟨q, List.mem_filter.2 ⟨hq, List.isPrefixOf_iff_prefix.2 hp⟩, rfl⟩)
      refine e2 _ ?_
      obtain ⟨hne, vals, h3, h4⟩ := hf
      obtain ⟨x, kids, h5, h6, h7⟩ := valuesAt_more d q.1 _ [] vals h3
      obtain ⟨n, c, h8⟩ := valuesAt_one kids _ vals h7
      rw [ofKey, getItem_key d q.1 h1 h2, h5] at e1
      simp only [walk, h6, h8, valAt, h4, named, Except.ok.injEq] at e1
      subst e1
      simp
  · intro k hk f hf
    have hm : eigenFiles d k ∈ [catE (outPaths.map (pathFile d)), eigenFiles d "system_eigenanalysis".toList, eigenFiles d "structure_eigenanalysis_file_name".toList,
      texts (resFiles d), texts (timeFiles d)] := by
      rcases hk with rfl | rfl <;> simp
    refine key _ hm _ ?_ fun a ha => ?_
    · intro e
      have := congrArg List.length e
      rw [pjoin] at this
      split at this
      · simp at this
      · split at this <;> simp at this
    · rw [heig _ f hf] at ha
      simp only [Except.ok.injEq] at ha
      subst ha
      simp

/-- **C254**: `turbulence_files` gives the names of the three components in the section of the format, and nothing without wind or turbulence -/
theorem C254 (d : Kids Val) :
    ("wind".toList ∉ d.map Prod.fst → turbFiles d = .ok []) ∧
    (∀ wind vs, HasSec d "wind".toList wind →
      (valuesAt ["turb_format".toList] wind = some (.num 0 :: vs) → turbFiles d = .ok []) ∧
      (valuesAt ["turb_format".toList] wind = some (.num 1 :: vs) → BoxLines wind "mann".toList → turbFiles d = .ok (boxNames wind "mann".toList)) ∧
      (valuesAt ["turb_format".toList] wind = some (.num 2 :: vs) → BoxLines wind "flex".toList → turbFiles d = .ok (boxNames wind "flex".toList))) := by
  constructor
  · intro h
    rw [turbFiles, (look_none_iff _ d).2 h]
  · intro wind vs hs
    have ht : ∀ n : Int, valuesAt ["turb_format".toList] wind = some (.num n :: vs) → turbFiles d =
        if n = 0 then .ok [] else if n = 1 then boxFiles d "mann".toList else if n = 2 then boxFiles d "flex".toList else .error .name := by
      intro n hn
      obtain ⟨m, c, h3⟩ := valuesAt_one wind _ _ hn
      obtain ⟨x, h1, h2⟩ := id hs
      have hk : kidsOf x = some wind := by
        rcases h2 with ⟨n, bc, ec, rfl⟩ | ⟨n, bc, ec, ss, rfl⟩ <;> rfl
      have hna : needAt wind "turb_format".toList = .ok (some (.num n)) := by rw [needAt, h3]; rfl
      rw [turbFiles, look_find, h1]
      simp only [hk, hna, Option.some.injEq, Val.num.injEq]
    refine ⟨fun h => ?_, fun h hb => ?_, fun h hb => ?_⟩
    · rw [ht 0 h]; rfl
    · rw [ht 1 h, ← boxFiles_ok d wind _ hs (by decide +kernel) (by decide +kernel) hb]; rfl
    · rw [ht 2 h, ← boxFiles_ok d wind _ hs (by decide +kernel) (by decide +kernel) hb]; rfl

/-! Concrete cases -/

/-- a line -/
def ln (k : String) (v : List Val) : Str × Item Val := (k.toList, .line k.toList v [])

/-- a section -/
def sc (k : String) (l : Kids Val) : Str × Item Val := (k.toList, .sec k.toList [] [] l)

/-- a text -/
def tx (s : String) : Val := .text s.toList

/-- a file with a body, aerodynamics, a DLL, wind, wakes and an output -/
def exF : Kids Val :=
  [sc "simulation" [ln "logfile" [tx "./log/A.log"]],
   sc "new_htc_structure" [ln "system_eigenanalysis" [tx "./eig/e.dat"],
     sc "main_body" [sc "timoschenko_input" [ln "filename" [tx "./st.dat"]]]],
   sc "aero" [ln "ae_filename" [tx "./ae.dat"], ln "pc_filename" [tx "./pc.dat"]],
   sc "dll" [sc "type2_dll" [ln "filename" [tx "./c.dll"]]],
   sc "wind" [ln "turb_format" [.num 1], sc "mann" [ln "filename_u" [tx "u.bin"], ln "filename_v" [tx "v.bin"]]],
   sc "wakes" [ln "use_specific_deficit_file" [tx "./deficit.dat"]],
   sc "output" [ln "filename" [tx "./res/a"], ln "data_format" [tx "gtsdf"]]]

example : inputFiles ["a.htc".toList] (fun _ => []) id exF =
    .ok (["a.htc", "./st.dat", "./ae.dat", "./pc.dat", "./c.dll", "./c_64.dll"].map String.toList) := by decide +kernel

example : "./deficit.dat".toList ∉ (["a.htc", "./st.dat", "./ae.dat", "./pc.dat", "./c.dll", "./c_64.dll"].map String.toList) := by decide +kernel

example : Names exF ["aero".toList, "pc_filename".toList] 0 "./pc.dat".toList := ⟨by decide +kernel, [tx "./pc.dat"], rfl, rfl⟩

example : WriteTest.splitext ("./c".toList ++ ".dll".toList) = ("./c".toList, ".dll".toList) := by decide +kernel

example : outputFiles exF = .ok (["./log/a.log", "./eig/e.dat", "./eig/mode*.dat", "./res/a.hdf5"].map String.toList) := by decide +kernel

example : Output (sc "output" [ln "filename" [tx "./res/a"], ln "data_format" [tx "gtsdf"]]).2 (some "gtsdf".toList) "./res/a".toList :=
  ⟨_, [], rfl, rfl, [], rfl⟩

example : resFiles exF = .ok ["./res/a.hdf5".toList] ∧ (exF.map Prod.fst).Nodup ∧ (∀ k ∈ exF.map Prod.fst, '.' ∉ k ∧ '/' ∉ k) := by decide +kernel

example : turbFiles exF = .ok [tx "u.bin", tx "v.bin"] := by decide +kernel

end Verif.HtcFiles
