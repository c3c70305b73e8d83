import Verif.Model.Deck
import Verif.Lemmas.Path
/-!
# C43: the references of a written FAST deck
-/
namespace Verif.Deck
open Verif.Py

/-- the data the user has for each module -/
def dataOf (d : Deck δ) : Mod → Option δ
  | .ED => d.ed
  | .IW => d.iw
  | .BD => d.bd
  | .AD => d.ad15
  | .HD => d.hd
  | .SD => d.sd
  | .MD => if d.flags.mooring = 1 then d.map else d.moordyn
  | .SvD => d.srvd
  | .Ice => none
  | .EDbld => d.edBld
  | .EDtwr => d.edTwr
  | .BDbld => d.bdBld

/-- modules whose data the writer needs -/
def needed (f : Flags) : Mod → Bool
  | .ED => true
  | .EDtwr => f.elast > 0
  | .EDbld => f.elast = 1
  | .BD => f.elast = 2
  | .BDbld => f.elast = 2
  | m => used f m

/-- a deck the writer supports: flag values it knows, and all data present -/
structure Supported (d : Deck δ) : Prop where
  hydro : d.flags.hydro ≤ 1
  sub : d.flags.sub ≤ 1
  mooring : d.flags.mooring ≤ 2
  ice : d.flags.ice = 0
  data : ∀ m, needed d.flags m = true → (dataOf d m).isSome = true

/-- the default directory, and a prefix and a suffix without slashes -/
structure ArgsOk (f : Flags) (a : Args) : Prop where
  dir : a.directory = none
  pre : '/' ∉ a.pre
  suf : '/' ∉ a.suf
  main : ∀ m, a.filename ≠ path f a m

/-- references set in a module file -/
def linksOf (f : Flags) (a : Args) : Mod → List Str
  | .ED => edLinks f a
  | .BD => [basename (path f a .BDbld)]
  | _ => []

theorem plain_name (a : Args) (hp : '/' ∉ a.pre) (hs : '/' ∉ a.suf) (m : Mod) :
    Plain (a.pre ++ m.tag ++ a.suf ++ ".dat".toList) := by
  refine ⟨?_, by simp⟩
  have : '/' ∉ m.tag := by cases m <;> decide
  simp only [List.mem_append, not_or]
  exact ⟨⟨⟨hp, this⟩, hs⟩, by decide⟩

theorem tag_inj : ∀ m m' : Mod, m.tag = m'.tag → m = m' := by
  intro m m'
  cases m <;> cases m' <;> first | (intro _; rfl) | (intro h; exact absurd h (by decide))

theorem path_used (f : Flags) (a : Args) (m : Mod) (h : used f m = true) :
    path f a m = pjoin a.dir (a.pre ++ m.tag ++ a.suf ++ ".dat".toList) := by rw [path, if_pos h]

/-- different modules have different files -/
theorem path_inj (f : Flags) (a : Args) (hp : '/' ∉ a.pre) (hs : '/' ∉ a.suf) (m m' : Mod) (h : used f m = true)
    (h' : used f m' = true) (e : path f a m = path f a m') : m = m' := by
  rw [path_used f a m h, path_used f a m' h'] at e
  have := pjoin_inj _ _ _ (plain_name a hp hs m) (plain_name a hp hs m') e
  rw [List.append_left_inj, List.append_left_inj, List.append_right_inj] at this
  exact tag_inj _ _ this

theorem path_ne_none (f : Flags) (a : Args) (hp : '/' ∉ a.pre) (hs : '/' ∉ a.suf) (m : Mod) (h : used f m = true) :
    path f a m ≠ "none".toList := by
  intro e
  have h1 := basename_pjoin a.dir _ (plain_name a hp hs m)
  rw [← path_used f a m h, e, basename_plain _ (by decide)] at h1
  have := congrArg List.getLast? h1
  rw [List.getLast?_append] at this
  have h2 : some 'e' = some 't' := this
  exact absurd h2 (by decide)

/-- every action of the writer writes the main file or the data of its module -/
theorem plan_mem (d : Deck δ) (a : Args) (hS : Supported d) (act : Act δ) (h : act ∈ plan d a) :
    act = .ok (a.filename, .main (refs d.flags a)) ∨
    ∃ m x, act = .ok (path d.flags a m, .mod x (linksOf d.flags a m)) ∧ (used d.flags m = true ∨ m = .ED) ∧
      dataOf d m = some x := by
  have key : ∀ (m : Mod) (links : List Str), needed d.flags m = true → (used d.flags m = true ∨ m = .ED) →
      links = linksOf d.flags a m → act = wr (dataOf d m) (path d.flags a m) links →
      ∃ m x, act = .ok (path d.flags a m, .mod x (linksOf d.flags a m)) ∧ (used d.flags m = true ∨ m = .ED) ∧
        dataOf d m = some x := by
    intro m links hn hu hl he
    obtain ⟨x, hx⟩ := Option.isSome_iff_exists.1 (hS.data m hn)
    rw [hx, hl] at he
    exact ⟨m, x, he, hu, hx⟩
  have need_mem : ∀ m, needed d.flags m = true → act ∉ need (dataOf d m) := by
    intro m hn hm
    obtain ⟨x, hx⟩ := Option.isSome_iff_exists.1 (hS.data m hn)
    rw [hx] at hm
    exact nomatch hm
  have hsub := hS.sub
  simp only [plan, List.mem_append, List.mem_singleton] at h
  rcases h with (((((((((h | h) | h) | h) | h) | h) | h) | h) | h) | h) | h
  · exact .inl h
  · split at h
    · rename_i hf
      rw [List.mem_append, List.mem_singleton] at h
      rcases h with h | h
      · exact absurd h (need_mem .ED rfl)
      · exact .inr (key .EDtwr [] (by simpa [needed] using hf) (.inl (by simpa [used] using hf)) rfl h)
    · exact nomatch h
  · split at h
    · rename_i hf
      rw [List.mem_singleton] at h
      exact .inr (key .EDbld [] (by simpa [needed] using hf) (.inl (by simp [used, hf])) rfl h)
    · split at h
      · rename_i hf
        rw [List.mem_append, List.mem_cons, List.mem_singleton] at h
        rcases h with h | h | h
        · exact absurd h (need_mem .BD (by simpa [needed] using hf))
        · exact .inr (key .BDbld [] (by simpa [needed] using hf) (.inl (by simp [used, hf])) rfl h)
        · exact .inr (key .BD _ (by simpa [needed] using hf) (.inl (by simp [used, hf])) rfl h)
      · exact nomatch h
  · exact .inr (key .ED _ rfl (.inr rfl) rfl h)
  · split at h
    · rename_i hf
      rw [List.mem_singleton] at h
      exact .inr (key .IW [] (by simpa [needed, used] using hf) (.inl (by simpa [used] using hf)) rfl h)
    · exact nomatch h
  · split at h
    · rename_i hf
      rw [List.mem_singleton] at h
      exact .inr (key .AD [] (by simpa [needed, used] using hf) (.inl (by simpa [used] using hf)) rfl h)
    · exact nomatch h
  · split at h
    · rename_i hf
      rw [List.mem_singleton] at h
      exact .inr (key .SvD [] (by simpa [needed, used] using hf) (.inl (by simpa [used] using hf)) rfl h)
    · exact nomatch h
  · split at h
    · rename_i hf
      rw [List.mem_singleton] at h
      exact .inr (key .HD [] (by simp [needed, used, hf]) (.inl (by simp [used, hf])) rfl h)
    · exact nomatch h
  · split at h
    · rename_i hf
      rw [List.mem_singleton] at h
      exact .inr (key .SD [] (by simp [needed, used, hf]) (.inl (by simp [used, hf])) rfl h)
    · rw [if_neg (by omega)] at h
      exact nomatch h
  · split at h
    · rename_i hf
      rw [List.mem_singleton] at h
      have e : d.map = dataOf d .MD := by simp [dataOf, hf]
      rw [e] at h
      exact .inr (key .MD [] (by simp [needed, used, hf]) (.inl (by simp [used, hf])) rfl h)
    · exact nomatch h
  · split at h
    · rename_i hf
      rw [List.mem_singleton] at h
      have e : d.moordyn = dataOf d .MD := by simp [dataOf, hf]
      rw [e] at h
      exact .inr (key .MD [] (by simp [needed, used, hf]) (.inl (by simp [used, hf])) rfl h)
    · exact nomatch h

/-- every needed module is written -/
theorem plan_has (d : Deck δ) (a : Args) (hS : Supported d) (m : Mod) (x : δ) (hn : needed d.flags m = true)
    (hx : dataOf d m = some x) : .ok (path d.flags a m, .mod x (linksOf d.flags a m)) ∈ plan d a := by
  have hw : ∀ links, wr (dataOf d m) (path d.flags a m) links = .ok (path d.flags a m, .mod x links) := by
    intro links; rw [hx]; rfl
  have h1 := hS.hydro
  have h2 := hS.sub
  have h3 := hS.mooring
  have h4 := hS.ice
  cases m with
  | MD =>
    have hf : 0 < d.flags.mooring := by simpa [needed, used] using hn
    rw [← hw]
    by_cases hm : d.flags.mooring = 1
    · simp [plan, linksOf, dataOf, hm]
    · have hm2 : d.flags.mooring = 2 := by omega
      simp [plan, linksOf, dataOf, hm2]
  | Ice => simp [needed, used, h4] at hn
  | HD =>
    have hf : 0 < d.flags.hydro := by simpa [needed, used] using hn
    have hf : d.flags.hydro = 1 := by omega
    rw [← hw]; simp [plan, linksOf, dataOf, hf]
  | SD =>
    have hf : 0 < d.flags.sub := by simpa [needed, used] using hn
    have hf : d.flags.sub = 1 := by omega
    rw [← hw]; simp [plan, linksOf, dataOf, hf]
  | ED => rw [← hw]; simp [plan, linksOf, dataOf]
  | IW =>
    have hf : 0 < d.flags.inflow := by simpa [needed, used] using hn
    rw [← hw]; simp [plan, linksOf, dataOf, hf]
  | AD =>
    have hf : 0 < d.flags.aero := by simpa [needed, used] using hn
    rw [← hw]; simp [plan, linksOf, dataOf, hf]
  | SvD =>
    have hf : 0 < d.flags.servo := by simpa [needed, used] using hn
    rw [← hw]; simp [plan, linksOf, dataOf, hf]
  | BD =>
    have hf : d.flags.elast = 2 := by simpa [needed] using hn
    rw [← hw]; simp [plan, linksOf, dataOf, hf]
  | BDbld =>
    have hf : d.flags.elast = 2 := by simpa [needed] using hn
    rw [← hw]; simp [plan, linksOf, dataOf, hf]
  | EDbld =>
    have hf : d.flags.elast = 1 := by simpa [needed] using hn
    rw [← hw]; simp [plan, linksOf, dataOf, hf]
  | EDtwr =>
    have hf : 0 < d.flags.elast := by simpa [needed] using hn
    rw [← hw]; simp [plan, linksOf, dataOf, hf]

/-- an action list without exceptions writes everything; a path written once keeps its content -/
theorem exec_ok (l : List (Act δ)) (h : ∀ act ∈ l, ∃ pc, act = .ok pc) (fs : FS δ) : (exec fs l).2 = none := by
  induction l generalizing fs with
  | nil => rfl
  | cons act l ih =>
    obtain ⟨⟨p, c⟩, rfl⟩ := h act (by simp)
    exact ih (fun x hx => h x (by simp [hx])) _

theorem exec_keep (l : List (Act δ)) (p : Str) (c : Content δ) (h : ∀ c', .ok (p, c') ∈ l → c' = c) (fs : FS δ)
    (hp : fs p = some c) : (exec fs l).1 p = some c := by
  induction l generalizing fs with
  | nil => exact hp
  | cons act l ih =>
    cases act with
    | error e => exact hp
    | ok pc =>
      obtain ⟨q, c'⟩ := pc
      apply ih (fun c' hc => h c' (by simp [hc]))
      by_cases hq : p = q
      · subst hq
        rw [if_pos rfl, h c' (by simp)]
      · rw [if_neg hq]; exact hp

theorem exec_get (l : List (Act δ)) (hok : ∀ act ∈ l, ∃ pc, act = .ok pc) (p : Str) (c : Content δ)
    (hm : .ok (p, c) ∈ l) (h : ∀ c', .ok (p, c') ∈ l → c' = c) (fs : FS δ) : (exec fs l).1 p = some c := by
  induction l generalizing fs with
  | nil => exact nomatch hm
  | cons act l ih =>
    obtain ⟨⟨q, c'⟩, rfl⟩ := hok act (by simp)
    rcases List.mem_cons.1 hm with hm | hm
    · injection hm with hm
      injection hm with h1 h2
      subst h1; subst h2
      exact exec_keep l p c (fun c' hc => h c' (by simp [hc])) _ (if_pos rfl)
    · exact ih (fun x hx => hok x (by simp [hx])) hm (fun c' hc => h c' (by simp [hc])) _

theorem plan_ok (d : Deck δ) (a : Args) (hS : Supported d) : ∀ act ∈ plan d a, ∃ pc, act = .ok pc := by
  intro act h
  rcases plan_mem d a hS act h with h | ⟨m, x, h, _⟩
  · exact ⟨_, h⟩
  · exact ⟨_, h⟩

/-- every needed module is found in its own file after the write -/
theorem file_of (fs : FS δ) (d : Deck δ) (a : Args) (hS : Supported d) (hA : ArgsOk d.flags a) (m : Mod)
    (hn : needed d.flags m = true) (hu : used d.flags m = true) :
    ∃ x, dataOf d m = some x ∧
      (write fs d a).1 (path d.flags a m) = some (.mod x (linksOf d.flags a m)) := by
  obtain ⟨x, hx⟩ := Option.isSome_iff_exists.1 (hS.data m hn)
  refine ⟨x, hx, exec_get _ (plan_ok d a hS) _ _ (plan_has d a hS m x hn hx) ?_ fs⟩
  intro c' hc
  rcases plan_mem d a hS _ hc with h | ⟨m', x', h, hu', hx'⟩
  · injection h with h
    injection h with h _
    exact absurd h.symm (hA.main m)
  · injection h with h
    injection h with h1 h2
    have : m = m' := by
      by_cases hum : used d.flags m' = true
      · exact path_inj _ a hA.pre hA.suf m m' hu hum h1
      · exfalso
        rw [path.eq_def d.flags a m', if_neg hum] at h1
        exact path_ne_none _ a hA.pre hA.suf m hu h1
    subst this
    rw [hx] at hx'
    injection hx' with hx'
    rw [h2, hx']

/-- the main file names the modules -/
theorem refs_spec (f : Flags) (a : Args) (hA : ArgsOk f a) (r : Ref) (hr : r ≠ .ServoFile) :
    (used f r.mod = true → resolve a.filename (refs f a r) = path f a r.mod) ∧
    (used f r.mod = false → refs f a r = "none".toList) := by
  have e : refs f a r = basename (path f a r.mod) := by
    cases r <;> first | rfl | exact absurd rfl hr
  have hd : a.dir = dirname a.filename := by rw [Args.dir, hA.dir]
  constructor
  · intro hu
    rw [resolve, e, path_used f a _ hu, basename_pjoin _ _ (plain_name a hA.pre hA.suf _), hd]
  · intro hu
    rw [e, path, hu, if_neg (by decide)]; rfl

/-- **C43 is violated for ServoDyn**: in every supported deck that uses AeroDyn and ServoDyn the
reference `ServoFile` leads to the AeroDyn file -/
theorem C43_fails (fs : FS δ) (d : Deck δ) (a : Args) (hS : Supported d) (hA : ArgsOk d.flags a)
    (h1 : 0 < d.flags.aero) :
    ∃ x, d.ad15 = some x ∧
      (write fs d a).1 (resolve a.filename (refs d.flags a .ServoFile)) = some (.mod x []) := by
  have hu : used d.flags .AD = true := by simpa [used] using h1
  obtain ⟨x, hx, h⟩ := file_of fs d a hS hA .AD (by simpa [needed] using hu) hu
  refine ⟨x, hx, ?_⟩
  have := (refs_spec d.flags a hA .AeroFile (by decide)).1 hu
  have e : refs d.flags a .ServoFile = refs d.flags a .AeroFile := rfl
  rw [e, this]
  exact h

/-- **C43** for all other modules: the write succeeds, and every reference of the main file to a
module that is switched on leads to the file with the data of this module; the others are "none".
(Missing for the full property: ServoDyn, and the decks excluded by `Supported` and `ArgsOk`.) -/
theorem C43_partial (fs : FS δ) (d : Deck δ) (a : Args) (hS : Supported d) (hA : ArgsOk d.flags a) :
    (write fs d a).2 = none ∧
    (write fs d a).1 a.filename = some (.main (refs d.flags a)) ∧
    ∀ r, r ≠ .ServoFile →
      (used d.flags r.mod = true → ∃ x links, dataOf d r.mod = some x ∧
        (write fs d a).1 (resolve a.filename (refs d.flags a r)) = some (.mod x links)) ∧
      (used d.flags r.mod = false → refs d.flags a r = "none".toList) := by
  refine ⟨exec_ok _ (plan_ok d a hS) fs, ?_, ?_⟩
  · refine exec_get _ (plan_ok d a hS) _ _ (by simp [plan]) ?_ fs
    intro c' hc
    rcases plan_mem d a hS _ hc with h | ⟨m', x', h, _⟩
    · injection h with h
      injection h with _ h
    · injection h with h
      injection h with h _
      exact absurd h (hA.main m')
  · intro r hr
    refine ⟨fun hu => ?_, (refs_spec _ a hA r hr).2⟩
    have hn : needed d.flags r.mod = true := by
      cases r <;> first | rfl | exact hu
    obtain ⟨x, hx, h⟩ := file_of fs d a hS hA r.mod hn hu
    exact ⟨x, _, hx, by rw [(refs_spec _ a hA r hr).1 hu]; exact h⟩

/-- **C43** for the files behind ElastoDyn and BeamDyn: the tower and blade references set in them
lead to the files with the tower and blade data -/
theorem C43_links_partial (fs : FS δ) (d : Deck δ) (a : Args) (hS : Supported d) (hA : ArgsOk d.flags a) (m k : Mod)
    (hmk : (m, k) ∈ [(Mod.ED, Mod.EDtwr), (.ED, .EDbld), (.BD, .BDbld)]) (hn : needed d.flags k = true) :
    ∃ links, ((write fs d a).1 (path d.flags a m)).map (fun c => match c with | .mod _ l => l | .main _ => []) = some links ∧
      ∃ l ∈ links, ∃ x, dataOf d k = some x ∧ (write fs d a).1 (resolve (path d.flags a m) l) = some (.mod x []) := by
  have hum : used d.flags m = true ∧ needed d.flags m = true ∧ used d.flags k = true := by
    simp only [List.mem_cons, Prod.mk.injEq, List.not_mem_nil, or_false] at hmk
    rcases hmk with ⟨rfl, rfl⟩ | ⟨rfl, rfl⟩ | ⟨rfl, rfl⟩ <;> simp [needed] at hn <;> simp [used, needed] <;> omega
  obtain ⟨x, hx, h⟩ := file_of fs d a hS hA m hum.2.1 hum.1
  obtain ⟨y, hy, hk⟩ := file_of fs d a hS hA k hn hum.2.2
  have hlk : linksOf d.flags a k = [] := by
    simp only [List.mem_cons, Prod.mk.injEq, List.not_mem_nil, or_false] at hmk
    rcases hmk with ⟨rfl, rfl⟩ | ⟨rfl, rfl⟩ | ⟨rfl, rfl⟩ <;> rfl
  have hd : a.dir = dirname a.filename := by rw [Args.dir, hA.dir]
  have hdo : DirOk a.dir := by rw [hd]; exact dirname_ok _
  have hres : resolve (path d.flags a m) (basename (path d.flags a k)) = path d.flags a k := by
    rw [resolve, path_used _ a m hum.1, path_used _ a k hum.2.2, basename_pjoin _ _ (plain_name a hA.pre hA.suf _),
      dirname_pjoin _ _ hdo (plain_name a hA.pre hA.suf _)]
  refine ⟨linksOf d.flags a m, by rw [h]; rfl, basename (path d.flags a k), ?_, y, hy, ?_⟩
  · simp only [List.mem_cons, Prod.mk.injEq, List.not_mem_nil, or_false] at hmk
    rcases hmk with ⟨rfl, rfl⟩ | ⟨rfl, rfl⟩ | ⟨rfl, rfl⟩ <;> simp [needed] at hn <;> simp [linksOf, edLinks, hn]
  · rw [hres, hk, hlk]

/-! ### Further violations and the example deck -/

/-- all modules, with numbers as data -/
def exDeck : Deck Nat where
  flags := ⟨1, 1, 2, 1, 1, 1, 2, 0⟩
  ed := some 1
  edTwr := some 2
  edBld := some 3
  bd := none
  bdBld := none
  iw := some 4
  ad15 := some 5
  srvd := some 6
  hd := some 7
  sd := some 8
  map := none
  moordyn := some 9

def exArgs : Args := { filename := "case/main.fst".toList, pre := "x_".toList }

theorem exSupported : Supported exDeck :=
  ⟨by decide, by decide, by decide, rfl, by intro m; cases m <;> decide⟩
theorem exArgsOk : ArgsOk exDeck.flags exArgs :=
  ⟨rfl, by decide, by decide, by intro m; cases m <;> decide⟩

example : Supported exDeck ∧ ArgsOk exDeck.flags exArgs ∧ 0 < exDeck.flags.aero ∧
    needed exDeck.flags .EDbld = true ∧ exDeck.srvd = some 6 := ⟨exSupported, exArgsOk, by decide, by decide, rfl⟩
example : 0 < exDeck.flags.elast := by decide
example : refs exDeck.flags exArgs .MooringFile = "x_MD.dat".toList ∧
    resolve exArgs.filename (refs exDeck.flags exArgs .MooringFile) = "case/x_MD.dat".toList := by decide

/-- content as data, for closed statements -/
def dataAt (fs : FS Nat) (p : Str) : Option Nat :=
  match fs p with
  | some (.mod x _) => some x
  | _ => none

/-- references of a module file, for closed statements -/
def linksAt (fs : FS Nat) (p : Str) : Option (List Str) :=
  match fs p with
  | some (.mod _ l) => some l
  | _ => none

/-- the names of the files of a deck: what `write` puts between prefix and suffix -/
def fileTags : List (Mod × String) :=
  [(.ED, "ED"), (.EDtwr, "ED_twr"), (.EDbld, "ED_bld"), (.BD, "BD"), (.BDbld, "BD_bld"), (.IW, "IW"), (.AD, "AD"), (.SvD, "SvD"),
   (.HD, "HD"), (.SD, "SD"), (.MD, "MD")]

/-- **C43**, where the files are: the data of every module in use (ElastoDyn only with
structural dynamics, see `C43_none_fails`) are in the directory of the main file, in the file named
prefix, tag, suffix, `.dat`; and no file but these and the main file changes. -/
theorem C43_files_partial (fs : FS δ) (d : Deck δ) (a : Args) (hS : Supported d) (hA : ArgsOk d.flags a) (he : 0 < d.flags.elast) :
    (∀ mt ∈ fileTags, needed d.flags mt.1 = true → ∃ x links, dataOf d mt.1 = some x ∧
      (write fs d a).1 (pjoin (dirname a.filename) (a.pre ++ mt.2.toList ++ a.suf ++ ".dat".toList)) = some (.mod x links)) ∧
    ∀ p, p ≠ a.filename → (∀ mt ∈ fileTags, p ≠ pjoin (dirname a.filename) (a.pre ++ mt.2.toList ++ a.suf ++ ".dat".toList)) →
      (write fs d a).1 p = fs p := by
  have hd : a.dir = dirname a.filename := by rw [Args.dir, hA.dir]
  have htag : ∀ mt ∈ fileTags, mt.1.tag = mt.2.toList := by decide
  have hu : ∀ mt ∈ fileTags, needed d.flags mt.1 = true → used d.flags mt.1 = true := by
    intro mt hmt hn
    simp only [fileTags, List.mem_cons, List.not_mem_nil, or_false] at hmt
    rcases hmt with rfl | rfl | rfl | rfl | rfl | rfl | rfl | rfl | rfl | rfl | rfl <;>
      simp [needed, used] at hn ⊢ <;> omega
  constructor
  · intro mt hmt hn
    obtain ⟨x, hx, h⟩ := file_of fs d a hS hA mt.1 hn (hu mt hmt hn)
    refine ⟨x, linksOf d.flags a mt.1, hx, ?_⟩
    rw [← htag mt hmt, ← hd, ← path_used d.flags a _ (hu mt hmt hn)]
    exact h
  · intro p hp hp'
    have key : ∀ (l : List (Act δ)) (fs : FS δ), (∀ act ∈ l, ∀ q c, act = .ok (q, c) → p ≠ q) → (exec fs l).1 p = fs p := by
      intro l
      induction l with
      | nil => intro fs _; rfl
      | cons x l ih =>
        intro fs h
        match x, h with
        | .error e, h => rfl
        | .ok (q, c), h =>
          rw [exec, ih _ (fun act hact => h act (by simp [hact]))]
          exact if_neg (h _ (by simp) q c rfl)
    refine key _ fs ?_
    intro act hact q c hq
    rcases plan_mem d a hS act hact with h | ⟨m, x, h, hum, hx⟩
    · rw [h] at hq; injection hq with hq; injection hq with hq _; rw [← hq]; exact hp
    · have hum' : used d.flags m = true := by
        rcases hum with h | rfl
        · exact h
        · simpa [used] using he
      rw [h] at hq; injection hq with hq; injection hq with hq _
      rw [← hq, path_used d.flags a m hum', hd]
      have hm : ∃ mt ∈ fileTags, mt.1 = m := by
        have : m ≠ .Ice := by rintro rfl; exact nomatch hx
        exact (by decide : ∀ m ∈ [Mod.ED, .IW, .BD, .AD, .HD, .SD, .MD, .SvD, .EDbld, .EDtwr, .BDbld], ∃ mt ∈ fileTags, mt.1 = m) m
          (by cases m <;> first | exact absurd rfl this | decide)
      obtain ⟨mt, hmt, rfl⟩ := hm
      rw [htag mt hmt]
      exact hp' mt hmt

/-- C43 fails with another directory: the references do not lead there -/
theorem C43_directory_fails :
    let a : Args := { exArgs with directory := some "out".toList }
    (write (fun _ => none) exDeck a).2 = none ∧
    dataAt (write (fun _ => none) exDeck a).1 "out/x_ED.dat".toList = some 1 ∧
    dataAt (write (fun _ => none) exDeck a).1 (resolve a.filename (refs exDeck.flags a .EDFile)) = none := by
  decide

/-- **C43**, modules that are switched off: the main file says "none" -/
theorem C43_off (f : Flags) (a : Args) :
    (f.elast = 0 → refs f a .EDFile = "none".toList) ∧ (f.elast ≠ 2 → refs f a .BDBldFile = "none".toList) ∧
    (f.inflow = 0 → refs f a .InflowFile = "none".toList) ∧ (f.aero = 0 → refs f a .AeroFile = "none".toList) ∧
    (f.hydro = 0 → refs f a .HydroFile = "none".toList) ∧ (f.sub = 0 → refs f a .SubFile = "none".toList) ∧
    (f.mooring = 0 → refs f a .MooringFile = "none".toList) ∧ (f.ice = 0 → refs f a .IceFile = "none".toList) := by
  have hb : basename "none".toList = "none".toList := by decide
  have key : ∀ m, used f m = false → basename (path f a m) = "none".toList := by
    intro m h
    rw [path, h, if_neg (by decide), hb]
  refine ⟨fun h => key .ED ?_, fun h => key .BD ?_, fun h => key .IW ?_, fun h => key .AD ?_, fun h => key .HD ?_, fun h => key .SD ?_,
    fun h => key .MD ?_, fun h => key .Ice ?_⟩ <;> simp [used, h]

/-- **C43**, modules that are switched on: the main file says their file names (ServoDyn: see `C43_fails`) -/
theorem C43_on (f : Flags) (a : Args) (hA : ArgsOk f a) :
    (0 < f.elast → refs f a .EDFile = a.pre ++ "ED".toList ++ a.suf ++ ".dat".toList) ∧
    (f.elast = 2 → refs f a .BDBldFile = a.pre ++ "BD".toList ++ a.suf ++ ".dat".toList) ∧
    (0 < f.inflow → refs f a .InflowFile = a.pre ++ "IW".toList ++ a.suf ++ ".dat".toList) ∧
    (0 < f.aero → refs f a .AeroFile = a.pre ++ "AD".toList ++ a.suf ++ ".dat".toList) ∧
    (0 < f.hydro → refs f a .HydroFile = a.pre ++ "HD".toList ++ a.suf ++ ".dat".toList) ∧
    (0 < f.sub → refs f a .SubFile = a.pre ++ "SD".toList ++ a.suf ++ ".dat".toList) ∧
    (0 < f.mooring → refs f a .MooringFile = a.pre ++ "MD".toList ++ a.suf ++ ".dat".toList) ∧
    (0 < f.ice → refs f a .IceFile = a.pre ++ "Ice".toList ++ a.suf ++ ".dat".toList) := by
  have key : ∀ m, used f m = true → basename (path f a m) = a.pre ++ m.tag ++ a.suf ++ ".dat".toList := by
    intro m h
    rw [path_used f a m h]
    exact basename_pjoin _ _ (plain_name a hA.pre hA.suf m)
  refine ⟨fun h => key .ED ?_, fun h => key .BD ?_, fun h => key .IW ?_, fun h => key .AD ?_, fun h => key .HD ?_, fun h => key .SD ?_,
    fun h => key .MD ?_, fun h => key .Ice ?_⟩ <;> simp [used, h]
example : ArgsOk exDeck.flags exArgs ∧ 0 < exDeck.flags.elast :=
  ⟨⟨rfl, by decide, by decide, by intro m; cases m <;> decide⟩, by decide⟩

/-- C43 fails with a prefix that contains a directory -/
theorem C43_prefix_fails :
    let a : Args := { exArgs with pre := "sub/".toList }
    (write (fun _ => none) exDeck a).2 = none ∧
    dataAt (write (fun _ => none) exDeck a).1 "case/sub/ED.dat".toList = some 1 ∧
    dataAt (write (fun _ => none) exDeck a).1 (resolve a.filename (refs exDeck.flags a .EDFile)) = none := by
  decide

/-- C43 fails for ice: a file is named and never written, without exception -/
theorem C43_ice_fails :
    let d : Deck Nat := { exDeck with flags := { exDeck.flags with ice := 1 } }
    (write (fun _ => none) d exArgs).2 = none ∧ refs d.flags exArgs .IceFile = "x_Ice.dat".toList ∧
    dataAt (write (fun _ => none) d exArgs).1 (resolve exArgs.filename (refs d.flags exArgs .IceFile)) = none := by
  decide

/-- C43 fails for AeroDyn 14: its data are not written; the write raises when the main file and
others are already written -/
theorem C43_ad14_fails :
    let d : Deck Nat := { exDeck with flags := { exDeck.flags with aero := 1 }, ad15 := none }
    (write (fun _ => none) d exArgs).2 = some .attribute ∧
    ((write (fun _ => none) d exArgs).1 exArgs.filename).isSome = true ∧
    dataAt (write (fun _ => none) d exArgs).1 "case/x_ED.dat".toList = some 1 ∧
    dataAt (write (fun _ => none) d exArgs).1 "case/x_HD.dat".toList = none := by
  decide

/-- C43 fails without structural dynamics: ElastoDyn data are written into a file "none" of the
working directory -/
theorem C43_none_fails :
    let d : Deck Nat := { exDeck with flags := { exDeck.flags with elast := 0 } }
    (write (fun _ => none) d exArgs).2 = none ∧
    dataAt (write (fun _ => none) d exArgs).1 "none".toList = some 1 ∧
    linksAt (write (fun _ => none) d exArgs).1 "none".toList = some [] := by
  decide

end Verif.Deck
