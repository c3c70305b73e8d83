import Verif.Lemmas.UserFmt
import Verif.Lemmas.Hawc2Sel
/-!
# Classes of the user folder

Properties C198 and C199.
-/
namespace Verif.UserFmt
open Verif.Py

/-- **C198**: errors ignored: the call gives, in the order of the files, the first class to be offered of each module and the path of its file, and one error for each
other module -/
theorem C198 (fs : List UFile) (h : ∀ f ∈ fs, InFolder f) : ∃ r, userFileClasses true (some fs) = .ok r ∧ Collected fs r.classes r.paths r.errors := by
  obtain ⟨cs, ps, es, e, hc⟩ := loop_ignore fs ⟨[], [], []⟩ h
  exact ⟨_, e, hc⟩

/-- **C198**: errors not ignored: the call raises the first of these errors, or gives the same classes and paths if there are none -/
theorem C198_strict (fs : List UFile) (h : ∀ f ∈ fs, InFolder f) (r : Res) (hr : userFileClasses true (some fs) = .ok r) :
    userFileClasses false (some fs) = match r.errors with
      | [] => .ok r
      | e :: _ => .error e := by
  obtain ⟨r', e, hc⟩ := C198 fs h
  obtain rfl : r' = r := Except.ok.inj (e.symm.trans hr)
  rw [userFileClasses, loop_strict fs _ _ _ _ h hc]
  obtain ⟨cs, ps, es⟩ := r'
  cases es <;> rfl

/-- **C198**: without the folder there are no classes and no errors -/
theorem C198_none (ignore : Bool) : userFileClasses ignore none = .ok ⟨[], [], []⟩ := rfl

/-- files of a folder: a module with its own class, one that cannot be imported, one without a class -/
def exFs : List UFile :=
  [⟨"u/a.py".toList, .members [("File".toList, some ⟨"File".toList, "weio/file.py".toList⟩), ("MyFile".toList, some ⟨"MyFile".toList, "u/a.py".toList⟩), ("np".toList, none)]⟩,
   ⟨"u/b.py".toList, .raises⟩, ⟨"u/c.py".toList, .members [("WrongFileError".toList, some ⟨"WrongFileError".toList, "u/c.py".toList⟩)]⟩]

theorem exFolder : ∀ f ∈ exFs, InFolder f := by unfold InFolder; decide

theorem exRun : userFileClasses true (some exFs) =
    .ok ⟨[⟨"MyFile".toList, "u/a.py".toList⟩], ["u/a.py".toList], [.importing "u/b.py".toList, .noClass "u/c.py".toList]⟩ := by decide +kernel

example : userFileClasses false (some exFs) = .error (.importing "u/b.py".toList) := C198_strict exFs exFolder _ exRun

example : ∃ r, userFileClasses true (some exFs) = .ok r ∧ Collected exFs r.classes r.paths r.errors := C198 exFs exFolder

/-- **C199** (partial): the classes are those of the modules: if the folder has no `__init__.py` and each module defines one class to be offered and has no other, these
are the classes.  Missing: imported classes are taken for classes of the module, and `__init__.py` is not left out. -/
theorem C199_partial (fs : List UFile) (h : ∀ f ∈ fs, InFolder f) (own : UFile → Cls)
    (ho : ∀ f ∈ fs, (own f).definedIn = f.path ∧ FileClass (own f) ∧ ∃ l, f.load = .members l ∧ (∃ n, (n, some (own f)) ∈ l) ∧ ∀ m ∈ l, ∀ d, m.2 = some d → FileClass d → d = own f)
    (ignore : Bool) : userFileClasses ignore (some fs) = .ok ⟨fs.map own, fs.map UFile.path, []⟩ := by
  have key : Collected fs (fs.map own) (fs.map UFile.path) [] := by
    clear h
    induction fs with
    | nil => exact .nil
    | cons f fs ih =>
      refine .offer f _ _ _ _ _ ?_ (ih fun g hg => ho g (by simp [hg]))
      obtain ⟨_, hf, l, hl, ⟨n, hn⟩, hu⟩ := ho f (by simp)
      cases hp : pick l with
      | none => exact absurd hf (pick_none l hp _ hn _ rfl)
      | some c =>
        obtain ⟨pre, k, post, e, hc, hpre⟩ := pick_some l c hp
        obtain rfl : c = own f := hu (k, some c) (by rw [e]; simp) c rfl hc
        exact ⟨pre, k, post, by rw [hl, e], hc, hpre⟩
  have hs := loop_strict fs ⟨[], [], []⟩ _ _ _ h key
  cases ignore with
  | false => rw [userFileClasses, hs]; rfl
  | true =>
    obtain ⟨r, hr, hc⟩ := C198 fs h
    have hs' := C198_strict fs h r hr
    rw [userFileClasses, hs] at hs'
    rw [hr]
    cases he : r.errors with
    | nil => rw [he] at hs'; exact hs'.symm
    | cons e es => rw [he] at hs'; cases hs'

example : userFileClasses false (some (exFs.take 1)) = .ok ⟨[⟨"MyFile".toList, "u/a.py".toList⟩], ["u/a.py".toList], []⟩ := by
  refine C199_partial (exFs.take 1) (by unfold InFolder; decide) (fun _ => ⟨"MyFile".toList, "u/a.py".toList⟩) ?_ false
  intro f hf
  obtain rfl : f = _ := List.mem_singleton.1 hf
  refine ⟨rfl, (isFile_iff _).1 (by decide +kernel), _, rfl, ⟨_, List.mem_cons_of_mem _ (List.mem_cons_self ..)⟩, ?_⟩
  intro m hm d hd hc
  rw [← isFile_iff] at hc
  fin_cases hm
  · obtain rfl : _ = d := Option.some.inj hd
    exact absurd hc (by decide +kernel)
  · exact (Option.some.inj hd).symm
  · cases hd

/-- **C199**, what does not hold: a class the module only imports is given in place of its own -/
theorem C199_fails : ∃ fs r, (∀ f ∈ fs, InFolder f) ∧ userFileClasses false (some fs) = .ok r ∧
    fs = [⟨"u/a.py".toList, .members [("CSVFile".toList, some ⟨"CSVFile".toList, "weio/csv_file.py".toList⟩), ("MyFile".toList, some ⟨"MyFile".toList, "u/a.py".toList⟩)]⟩] ∧
    r.classes = [⟨"CSVFile".toList, "weio/csv_file.py".toList⟩] :=
  ⟨_, ⟨[⟨"CSVFile".toList, "weio/csv_file.py".toList⟩], ["u/a.py".toList], []⟩, by unfold InFolder; decide, by decide +kernel, rfl, rfl⟩

/-- **C199**, what does not hold: an empty `__init__.py` in the folder is an error -/
theorem C199_init_fails : userFileClasses false (some [⟨"u/__init__.py".toList, .members []⟩]) = .error (.noClass "u/__init__.py".toList) := by decide +kernel

end Verif.UserFmt
