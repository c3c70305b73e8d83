import Verif.Model.FileBase
import Verif.Py.Dec
/-!
# C06: read and write guards of file objects
-/
namespace Verif.FileBase
open Verif.Py

/-- a usable name: given and not empty -/
def usable : Option Str → Bool
  | some (_ :: _) => true
  | _ => false

/-- specification of the remembered name after a history: the last usable name
given to any call (successful or not), else the initial one. -/
def lastName (init : Option Str) (ops : List Op) : Option Str :=
  match (ops.map Op.name).reverse.find? usable with
  | some n => n
  | none => init

/-- **C06** — the name used by a call is the last usable name given so far. -/
theorem C06_name_history (h : Hooks δ ε) (fs : FS) (o : Obj δ) (ops : List Op) :
    (run h fs o ops).2.filename = lastName o.filename ops := by
  have hstep : ∀ (fs : FS) (o : Obj δ) (op : Op),
      (step h fs o op).obj.filename = if usable op.name then op.name else o.filename := by
    intro fs o op
    have hset : ∀ f : Option Str, (setName o f).filename = if usable f then f else o.filename := by
      intro f
      rcases f with _ | (_ | ⟨c, s⟩) <;> simp [setName, usable]
    cases op with
    | read f =>
      refine Eq.trans ?_ (hset f)
      simp only [step, read]
      split
      · rfl
      · split
        · rfl
        · rfl
        · split <;> rfl
    | write f =>
      refine Eq.trans ?_ (hset f)
      simp only [step, write]
      split <;> rfl
  induction ops generalizing fs o with
  | nil => simp [run, lastName]
  | cons op ops ih =>
    rw [run, ih]
    simp only [hstep]
    unfold lastName
    simp only [List.map_cons, List.reverse_cons, List.find?_append]
    cases hf : List.find? usable (List.map Op.name ops).reverse with
    | some n => simp
    | none =>
      by_cases hu : usable op.name = true
      · simp [hu]
      · simp [hu]

/-- the name a call works on, as the user sees it: its argument if usable, else
the remembered name if usable. -/
def target (o : Obj δ) (filename : Option Str) : Option Str :=
  if usable filename then filename else if usable o.filename then o.filename else none

theorem currentName_setName (o : Obj δ) (f : Option Str) :
    currentName (setName o f) = target o f := by
  rcases f with _ | (_ | ⟨c, s⟩) <;> rcases ho : o.filename with _ | (_ | ⟨c', s'⟩) <;>
    simp [currentName, setName, target, usable, ho]

/-- **C06** — the four outcomes of `read`, with the files on which the parser
ran.  In the error cases the parser did not run; reading never changes the file
system. -/
theorem C06_read (h : Hooks δ ε) (fs : FS) (o : Obj δ) (f : Option Str) :
    let r := read h fs o f
    r.fs = fs ∧
    match target o f with
    | none => r.out = .error .noFilename ∧ r.ran = [] ∧ r.obj.data = o.data
    | some p =>
      match fs p with
      | none => r.out = .error .notFound ∧ r.ran = [] ∧ r.obj.data = o.data
      | some bytes =>
        if bytes.length = 0 then r.out = .error .emptyFile ∧ r.ran = [] ∧ r.obj.data = o.data
        else r.ran = [p] ∧
          (∀ d, h.parse p bytes = .ok d → r.out = .ok () ∧ r.obj.data = d) ∧
          (∀ e, h.parse p bytes = .error e → r.out = .error (.hook e)) := by
  have hd : (setName o f).data = o.data := by
    rcases f with _ | (_ | ⟨c, s⟩) <;> simp [setName]
  simp only [read]
  rw [currentName_setName]
  cases target o f with
  | none => simp [hd]
  | some p =>
    cases hfs : fs p with
    | none => simp [hfs, hd]
    | some bytes =>
      cases bytes with
      | nil => simp [hfs, hd]
      | cons b bs =>
        cases hp : h.parse p (b :: bs) with
        | ok d => simp [hfs, hp]
        | error e => simp [hfs, hp]

/-- **C06** — `write` without a usable name raises and touches no file;
otherwise the writer runs exactly once, on the target name. -/
theorem C06_write (h : Hooks δ ε) (fs : FS) (o : Obj δ) (f : Option Str) :
    let r := write h fs o f
    r.obj.data = o.data ∧
    match target o f with
    | none => r.out = .error .noFilename ∧ r.ran = [] ∧ r.fs = fs
    | some p => r.ran = [p] ∧ r.fs = (h.emit o.data p fs).1 ∧
        (r.out = .ok () ↔ (h.emit o.data p fs).2 = none) := by
  have hd : (setName o f).data = o.data := by
    rcases f with _ | (_ | ⟨c, s⟩) <;> simp [setName]
  simp only [write]
  rw [currentName_setName]
  cases target o f with
  | none => simp [hd]
  | some p =>
    simp only [hd, true_and]
    cases (h.emit o.data p fs).2 <;> simp

/-- **C06** — a failed call still sets the remembered name (instance: reading a
missing file). -/
theorem C06_failed_call_keeps_name (h : Hooks δ ε) (fs : FS) (o : Obj δ) (op : Op)
    (hu : usable op.name = true) : (step h fs o op).obj.filename = op.name := by
  have := C06_name_history h fs o [op]
  simpa [run, lastName, hu] using this

section Example
def exHooks : Hooks Nat String :=
  ⟨fun _ b => if b.length = 3 then .error "Broken" else .ok b.length,
   fun d p fs => (fun q => if q = p then some (List.replicate d 0) else fs q, none)⟩
def exFS : FS := fun p =>
  if p = "a".toList then some [1, 2] else if p = "e".toList then some [] else none

-- a history mixing failures and successes: read "e" (empty), write (to "e"), read ""
example : ((run exHooks exFS (new 5) [.read none, .read (some "e".toList), .write none,
    .read (some [])]).2.filename = some "e".toList) ∧
    (run exHooks exFS (new 5) [.read none, .read (some "e".toList), .write none,
    .read (some [])]).2.data = 5 := by decide
example : usable (Op.read (some "zz".toList)).name = true := by decide
end Example

/-! ## C06 for the classes with their own guards -/

/-- a result of the base class seen as one of an overriding class -/
def Res.lift (r : Res δ ε) : ResO δ ε :=
  ⟨r.obj, r.fs, match r.out with | .ok () => .ok () | .error e => .error (.std e), r.ran⟩

/-- C06 fails for six classes: an empty file gives a NameError instead of EmptyFileError -/
theorem C06_empty_fails : ∀ c ∈ [Cls.bladed, .bmodes, .cactusElement, .fastInput, .raawmat, .rosco],
    (readO c.guard exHooks exFS (new 5) (some "e".toList)).out = .error .nameError ∧
    (read exHooks exFS (new 5) (some "e".toList)).out = .error .emptyFile := by decide

/-- C06 fails for Tecplot and VTK: the remembered name is not used by a call without name -/
theorem C06_name_fails : ∀ c ∈ [Cls.tecplot, .vtk],
    (readO c.guard exHooks exFS (readO c.guard exHooks exFS (new 5) (some "a".toList)).obj none).out
      = .error .badOpen ∧
    (read exHooks exFS (read exHooks exFS (new 5) (some "a".toList)).obj none).out = .ok () := by decide

/-- C06 fails for VTK: `write()` without name does not write to the remembered file -/
theorem C06_write_fails :
    (writeO Cls.vtk.guard exHooks exFS ⟨some "a".toList, 5⟩ none).out = .error .badOpen ∧
    (write exHooks exFS ⟨some "a".toList, 5⟩ none).out = .ok () := by decide

/-- **C06** for every class: the calls behave as those of the base class, so that the
theorems above hold for them, when the file is not empty (six classes) and a usable name
is given (Tecplot, VTK). (Missing for the full property: the three cases above.) -/
theorem C06_classes_partial (c : Cls) (h : Hooks δ ε) (fs : FS) (o : Obj δ) (f : Option Str)
    (hempty : c ∉ [Cls.bladed, .bmodes, .cactusElement, .fastInput, .raawmat, .rosco] ∨
      ∀ p, target o f = some p → fs p ≠ some [])
    (hr : c ∉ [Cls.tecplot, .vtk] ∨ usable f = true) :
    readO c.guard h fs o f = (read h fs o f).lift := by
  replace hempty : c.guard.emptyKnown = true ∨ ∀ p, target o f = some p → fs p ≠ some [] :=
    hempty.imp (fun hc => by cases c <;> first | rfl | exact absurd hc (by decide)) id
  replace hr : c.guard.readsArg = false ∨ usable f = true :=
    hr.imp (fun hc => by cases c <;> first | rfl | exact absurd hc (by decide)) id
  have hopen : ∀ p, currentName (setName o f) = some p → opened c.guard.readsArg (setName o f) f = some p := by
    intro p hp
    rcases hr with hr | hr
    · simp only [opened, hr, Bool.false_eq_true, if_false]; exact hp
    · rcases f with _ | (_ | ⟨a, s⟩)
      · exact absurd hr (by decide)
      · exact absurd hr (by simp [usable])
      · rw [opened]
        simp only [setName, currentName] at hp ⊢
        split
        · exact hp
        · exact hp
  rw [readO, read]
  cases hp : currentName (setName o f) with
  | none => rfl
  | some p =>
    simp only
    cases hfs : fs p with
    | none => rfl
    | some bytes =>
      cases bytes with
      | nil =>
        rcases hempty with he | he
        · simp only [he, if_true]; rfl
        · rw [currentName_setName] at hp
          exact absurd hfs (he p hp)
      | cons b bs =>
        simp only [hopen p hp]
        cases h.parse p (b :: bs) <;> rfl

/-- **C06**: `write` of every class but VTK is that of the base class; that of VTK when a
usable name is given -/
theorem C06_classes_write_partial (c : Cls) (h : Hooks δ ε) (fs : FS) (o : Obj δ) (f : Option Str)
    (hw : c ≠ .vtk ∨ usable f = true) : writeO c.guard h fs o f = (write h fs o f).lift := by
  have hopen : ∀ p, currentName (setName o f) = some p → opened c.guard.writesArg (setName o f) f = some p := by
    intro p hp
    rcases hw with hw | hw
    · have : c.guard.writesArg = false := by cases c <;> first | rfl | exact absurd rfl hw
      simp only [opened, this, Bool.false_eq_true, if_false]; exact hp
    · rcases f with _ | (_ | ⟨a, s⟩)
      · exact absurd hw (by decide)
      · exact absurd hw (by simp [usable])
      · rw [opened]
        simp only [setName, currentName] at hp ⊢
        split
        · exact hp
        · exact hp
  rw [writeO, write]
  cases hp : currentName (setName o f) with
  | none => rfl
  | some p =>
    simp only [hopen p hp]
    cases (h.emit (setName o f).data p fs).2 <;> rfl

example : (Cls.turbsim.guard.emptyKnown = true ∨ ∀ p, target (new 5) (some "e".toList) = some p → exFS p ≠ some []) ∧
    (Cls.turbsim.guard.readsArg = false ∨ usable (some "e".toList) = true) := by decide
example : Cls.vtk.guard.readsArg = true ∧ usable (some "a".toList) = true ∧ (Cls.fastInput.guard.emptyKnown = false) ∧
    exFS "a".toList ≠ some [] := by decide

end Verif.FileBase
