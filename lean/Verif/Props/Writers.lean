import Verif.Model.Writers
import Verif.Py.Dec
import Verif.Props.Htc
/-!
# C48 — a failing write and the previous content of the file
-/
namespace Verif.Writers
open Verif.Py

/-! ## Lemmas -/

/-- a step that does not raise -/
def Fine (can : Str → Bool) : Act → Prop
  | .check r => r = .ok ()
  | .openW p => can p = true
  | .emit _ r => ∃ b, r = .ok b

theorem exec_fine (can : Str → Bool) (as : List Act) (h : ∀ a ∈ as, Fine can a) (fs : FS) :
    (exec can fs as).2 = .ok () := by
  induction as generalizing fs with
  | nil => rfl
  | cons a as ih =>
    have ha := h a (List.mem_cons_self)
    have hs := fun b hb => h b (List.mem_cons_of_mem a hb)
    cases a with
    | check r => simp only [Fine] at ha; subst ha; exact ih hs fs
    | openW p => simp only [Fine] at ha; simp only [exec, ha, if_true]; exact ih hs _
    | emit p r => obtain ⟨b, rfl⟩ := ha; exact ih hs _

theorem exec_bad (can : Str → Bool) (as : List Act) (h : ∃ a ∈ as, ¬ Fine can a) (fs : FS) :
    ∃ e, (exec can fs as).2 = .error e := by
  induction as generalizing fs with
  | nil => simp at h
  | cons a as ih =>
    by_cases ha : Fine can a
    · have hs : ∃ b ∈ as, ¬ Fine can b := by
        obtain ⟨b, hb, hn⟩ := h
        rcases List.mem_cons.1 hb with rfl | hb
        · exact absurd ha hn
        · exact ⟨b, hb, hn⟩
      cases a with
      | check r => simp only [Fine] at ha; subst ha; exact ih hs fs
      | openW p => simp only [Fine] at ha; simp only [exec, ha, if_true]; exact ih hs _
      | emit p r => obtain ⟨b, rfl⟩ := ha; exact ih hs _
    · cases a with
      | check r =>
        cases r with
        | ok u => exact absurd rfl ha
        | error e => exact ⟨e, rfl⟩
      | openW p =>
        simp only [Fine] at ha
        exact ⟨.os, by simp [exec, ha]⟩
      | emit p r =>
        cases r with
        | ok b => exact absurd ⟨b, rfl⟩ ha
        | error e => exact ⟨e, rfl⟩

/-- the outcome depends on the steps only, the content of `p` on them and on what `p` held before -/
theorem exec_same (can : Str → Bool) (p : Str) (as : List Act) (fs fs' : FS) (h : fs p = fs' p) :
    (exec can fs as).2 = (exec can fs' as).2 ∧ (exec can fs as).1 p = (exec can fs' as).1 p := by
  induction as generalizing fs fs' with
  | nil => exact ⟨rfl, h⟩
  | cons a as ih =>
    cases a with
    | check r =>
      cases r with
      | ok u => exact ih fs fs' h
      | error e => exact ⟨rfl, h⟩
    | openW q =>
      simp only [exec]
      by_cases hc : can q = true
      · rw [if_pos hc, if_pos hc]
        refine ih _ _ ?_
        by_cases hq : p = q
        · simp [FS.set, hq]
        · simp [FS.set, hq, h]
      · rw [if_neg hc, if_neg hc]
        exact ⟨rfl, h⟩
    | emit q r =>
      cases r with
      | error e => exact ⟨rfl, h⟩
      | ok b =>
        refine ih _ _ ?_
        by_cases hq : p = q
        · subst hq; simp [FS.set, h]
        · simp [FS.set, hq, h]

theorem joinAll_ok (sep : Str) (rs : List (Except Err Str)) (h : ∀ r ∈ rs, ∃ s, r = .ok s) : ∃ s, joinAll sep rs = .ok s := by
  induction rs with
  | nil => exact ⟨_, rfl⟩
  | cons r rs ih =>
    obtain ⟨s, rfl⟩ := h r (List.mem_cons_self)
    obtain ⟨t, ht⟩ := ih (fun b hb => h b (List.mem_cons_of_mem _ hb))
    cases rs with
    | nil => exact ⟨_, rfl⟩
    | cons r' rs => exact ⟨_, by rw [joinAll, ht]; exact nofun⟩

theorem joinAll_bad (sep : Str) (rs : List (Except Err Str)) (h : ∃ e, .error e ∈ rs) : ∃ e, joinAll sep rs = .error e := by
  induction rs with
  | nil => obtain ⟨e, h⟩ := h; simp at h
  | cons r rs ih =>
    cases r with
    | error e =>
      cases rs with
      | nil => exact ⟨e, rfl⟩
      | cons r' rs => exact ⟨e, by rw [joinAll]; exact nofun⟩
    | ok s =>
      obtain ⟨e, h⟩ := h
      have h' : .error e ∈ rs := by
        rcases List.mem_cons.1 h with h | h
        · exact nomatch h
        · exact h
      obtain ⟨e', he⟩ := ih ⟨e, h'⟩
      cases rs with
      | nil => simp at h'
      | cons r' rs => exact ⟨e', by rw [joinAll, he]; exact nofun⟩

theorem packAll_ok (E : Env) (l : List X) (h : ∀ x ∈ l, E.pack x ≠ none) : ∃ b, packAll E l = .ok b := by
  induction l with
  | nil => exact ⟨_, rfl⟩
  | cons x l ih =>
    obtain ⟨t, ht⟩ := ih (fun b hb => h b (List.mem_cons_of_mem _ hb))
    cases hx : E.pack x with
    | none => exact absurd hx (h x (List.mem_cons_self))
    | some b => exact ⟨b ++ t, by simp only [packAll, hx, ht]⟩

theorem packAll_bad (E : Env) (l : List X) (h : ∃ x ∈ l, E.pack x = none) : ∃ e, packAll E l = .error e := by
  induction l with
  | nil => simp at h
  | cons x l ih =>
    cases hx : E.pack x with
    | none => exact ⟨.overflow, by simp only [packAll, hx]⟩
    | some b =>
      have : ∃ y ∈ l, E.pack y = none := by
        obtain ⟨y, hy, hn⟩ := h
        rcases List.mem_cons.1 hy with rfl | hy
        · rw [hx] at hn; exact nomatch hn
        · exact ⟨y, hy, hn⟩
      obtain ⟨e, he⟩ := ih this
      exact ⟨e, by simp only [packAll, hx, he]⟩

/-! ## The states in which a writer is safe -/

/-- no number of the table is NaN or infinite -/
def Finite (rows : List (List X)) : Prop := ∀ r ∈ rows, ∀ x ∈ r, ∃ q, x = .fin q

/-- The states in which a failing `write` cannot have emptied a file. -/
def Safe (E : Env) : Writer → Prop
  | .notImpl | .linear => True
  | .unbound => False
  | .rosco keys => keys = false
  | .fastInput sanity es => (∃ e, sanity = .error e) ∨ ∀ rows, .table rows ∈ es → Finite rows
  | .turbsimTS text => text ≠ none
  | .fastOut _ units _ => units ≠ none
  | .mann field => ∀ f, field = some f → ∀ plane ∈ f, ∀ row ∈ plane, ∀ x ∈ row, E.pack x ≠ none
  | .tecplot _ vars _ => vars ≠ none
  | .hawc2 rows _ names descr units => rows = [] ∨ names ≠ none ∧ descr ≠ none ∧ units ≠ none
  | .csv header sep _ data => (header = [] ∧ data = none) ∨ (sep ≠ none ∧ data ≠ none)
  | .htc text => text ≠ none

/-- the file that is emptied first -/
def Writer.target (p : Str) : Writer → Str
  | .hawc2 .. => datName p
  | _ => p

theorem fine_text (E : Env) (can : Str → Bool) (hE : ∀ s, E.enc s ≠ none) (p s : Str) : Fine can (emitText E p s) := by
  cases h : E.enc s with
  | none => exact absurd h (hE s)
  | some b => exact ⟨b, by rw [h]⟩

theorem fine_made (E : Env) (can : Str → Bool) (hE : ∀ s, E.enc s ≠ none) (p : Str) (r : Except Err Str)
    (h : ∃ s, r = .ok s) : Fine can (emitMade E p r) := by
  obtain ⟨s, rfl⟩ := h
  exact fine_text E can hE p s

theorem bad_made (E : Env) (can : Str → Bool) (p : Str) (r : Except Err Str)
    (h : ∃ e, r = .error e) : ¬ Fine can (emitMade E p r) := by
  obtain ⟨s, rfl⟩ := h
  rintro ⟨b, hb⟩
  exact nomatch hb

theorem inputText_ok (E : Env) (es : List Ent) (h : ∀ rows, .table rows ∈ es → Finite rows) : ∃ s, inputText E es = .ok s := by
  apply joinAll_ok
  intro r hr
  obtain ⟨e, he, rfl⟩ := List.mem_map.1 hr
  cases e with
  | text s => exact ⟨s, rfl⟩
  | table rows =>
    apply joinAll_ok
    intro r hr
    obtain ⟨row, hrow, rfl⟩ := List.mem_map.1 hr
    apply joinAll_ok
    intro r hr
    obtain ⟨x, hx, rfl⟩ := List.mem_map.1 hr
    obtain ⟨q, rfl⟩ := h rows he row hrow x hx
    exact ⟨_, rfl⟩

theorem inputText_bad (E : Env) (es : List Ent) (h : ¬ ∀ rows, .table rows ∈ es → Finite rows) : ∃ e, inputText E es = .error e := by
  simp only [Finite, not_forall] at h
  obtain ⟨rows, he, row, hrow, x, hx, hq⟩ := h
  have hc : ∃ e, cellText E x = .error e := by
    cases x with
    | fin q => exact absurd ⟨q, rfl⟩ hq
    | inf => exact ⟨_, rfl⟩
    | nan => exact ⟨_, rfl⟩
  obtain ⟨e0, h0⟩ := hc
  obtain ⟨e1, h1⟩ := joinAll_bad ['\t'] (row.map (cellText E)) ⟨e0, h0 ▸ List.mem_map_of_mem hx⟩
  obtain ⟨e2, h2⟩ := joinAll_bad ['\n'] (rows.map fun r => joinAll ['\t'] (r.map (cellText E)))
    ⟨e1, h1 ▸ List.mem_map_of_mem (f := fun r => joinAll ['\t'] (r.map (cellText E))) hrow⟩
  refine joinAll_bad _ _ ⟨e2, ?_⟩
  have : entText E (.table rows) = .error e2 := h2
  exact this ▸ List.mem_map_of_mem he

/-! ## C48 -/

/-- ASCII only, one byte per number, 999 too large -/
abbrev toyEnv : Env where
  enc := fun s => if s.all (·.toNat < 128) then some (s.map fun c => UInt8.ofNat c.toNat) else none
  fmt := fun x => match x with | .fin q => (toString q).toList | .inf => "inf".toList | .nan => "nan".toList
  pack := fun x => match x with | .fin q => if q < 999 then some [UInt8.ofNat q.toNat] else none | _ => some [0]

/-- a directory with one file -/
abbrev toyFS : FS := fun q => if q = "x.dat".toList then some [1, 2, 3] else none


/-- steps that can only fail before any file is touched, then only at the opening -/
theorem keeps (can : Str → Bool) (fs : FS) (r : Except Err Unit) (q : Str) (as : List Act)
    (has : can q = true → ∀ a ∈ as, Fine can a) (e : Err)
    (he : (exec can fs (.check r :: .openW q :: as)).2 = .error e) :
    (exec can fs (.check r :: .openW q :: as)).1 = fs := by
  cases r with
  | error e => rfl
  | ok u =>
    by_cases hc : can q = true
    · simp only [exec, hc, if_true] at he
      rw [exec_fine can as (has hc)] at he
      exact nomatch he
    · simp only [exec]
      rw [if_neg hc]

/-- the same without a check -/
theorem keeps' (can : Str → Bool) (fs : FS) (q : Str) (as : List Act)
    (has : can q = true → ∀ a ∈ as, Fine can a) (e : Err)
    (he : (exec can fs (.openW q :: as)).2 = .error e) :
    (exec can fs (.openW q :: as)).1 = fs := keeps can fs (.ok ()) q as has e he

/-- **C48**, in the safe states: if `write` raises, no file has changed.  (Encodable texts; the
`.sel` file can be opened when the `.dat` file can.) -/
theorem C48_partial (E : Env) (hE : ∀ s, E.enc s ≠ none) (can : Str → Bool) (p : Str)
    (hcan : can (datName p) = true → can (selName p) = true) (w : Writer) (hw : Safe E w) (fs : FS) (e : Err)
    (he : (write E can fs p w).2 = .error e) : (write E can fs p w).1 = fs := by
  cases w with
  | notImpl => rfl
  | fastInput sanity es =>
    rcases hw with ⟨e', rfl⟩ | hw
    · rfl
    · refine keeps can fs sanity p _ (fun _ a ha => ?_) e he
      obtain rfl := List.mem_singleton.1 ha
      exact fine_made E can hE p _ (inputText_ok E es hw)
  | unbound => exact hw.elim
  | rosco keys => simp only [Safe] at hw; subst hw; rfl
  | linear =>
    refine keeps' can fs p _ (fun _ a ha => ?_) e he
    obtain rfl := List.mem_singleton.1 ha
    exact fine_text E can hE p _
  | turbsimTS text =>
    refine keeps' can fs p _ (fun _ a ha => ?_) e he
    obtain rfl := List.mem_singleton.1 ha
    cases text with
    | none => exact absurd rfl hw
    | some s => exact fine_made E can hE p _ ⟨s, rfl⟩
  | fastOut names units rows =>
    refine keeps' can fs p _ (fun _ a ha => ?_) e he
    cases units with
    | none => exact absurd rfl hw
    | some us =>
      simp only [List.mem_cons, List.not_mem_nil, or_false] at ha
      rcases ha with rfl | rfl | rfl
      · exact fine_text E can hE p _
      · exact fine_made E can hE p _ ⟨_, rfl⟩
      · exact fine_text E can hE p _
  | mann field =>
    cases field with
    | none => rfl
    | some f =>
      refine keeps can fs (.ok ()) p _ (fun _ a ha => ?_) e he
      obtain ⟨plane, hp, rfl⟩ := List.mem_map.1 ha
      refine packAll_ok E _ (fun x hx => ?_)
      obtain ⟨row, hr, hx⟩ := List.mem_flatten.1 hx
      exact hw f rfl plane hp row (List.mem_reverse.1 hr) x hx
  | tecplot title vars ls =>
    refine keeps' can fs p _ (fun _ a ha => ?_) e he
    cases vars with
    | none => exact absurd rfl hw
    | some vs =>
      rcases List.mem_append.1 ha with ha | ha
      · cases title with
        | none => simp at ha
        | some t => obtain rfl := List.mem_singleton.1 ha; exact fine_text E can hE p _
      · rcases List.mem_cons.1 ha with rfl | ha
        · exact fine_made E can hE p _ ⟨_, rfl⟩
        · obtain ⟨l, _, rfl⟩ := List.mem_map.1 ha
          exact fine_text E can hE p _
  | hawc2 rows head names descr units =>
    rcases hw with rfl | ⟨hn, hd, hu⟩
    · rfl
    · refine keeps can fs _ (datName p) _ (fun hc a ha => ?_) e he
      simp only [List.mem_cons, List.not_mem_nil, or_false] at ha
      rcases ha with rfl | rfl | rfl | rfl
      · exact fine_text E can hE _ _
      · exact hcan hc
      · exact fine_text E can hE _ _
      · cases names with
        | none => exact absurd rfl hn
        | some ns =>
          cases descr with
          | none => exact absurd rfl hd
          | some ds =>
            cases units with
            | none => exact absurd rfl hu
            | some us => exact fine_made E can hE _ _ ⟨_, rfl⟩
  | csv header sep cols data =>
    rcases hw with ⟨rfl, rfl⟩ | ⟨hs, hd⟩
    · rfl
    · cases sep with
      | none => exact absurd rfl hs
      | some c =>
        cases data with
        | none => exact absurd rfl hd
        | some rows =>
          cases header with
          | nil =>
            refine keeps' can fs p _ (fun _ a ha => ?_) e he
            obtain rfl := List.mem_singleton.1 ha
            exact fine_made E can hE p _ ⟨_, rfl⟩
          | cons h hs =>
            refine keeps' can fs p _ (fun _ a ha => ?_) e he
            simp only [List.mem_cons, List.not_mem_nil, or_false] at ha
            rcases ha with rfl | rfl
            · exact fine_text E can hE p _
            · exact fine_made E can hE p _ ⟨_, rfl⟩
  | htc text =>
    refine keeps' can fs p _ (fun _ a ha => ?_) e he
    obtain rfl := List.mem_singleton.1 ha
    cases text with
    | none => exact absurd rfl hw
    | some s => exact fine_made E can hE p _ ⟨s, rfl⟩

/-- steps with a failing one after the opening: the old content plays no role any more -/
theorem destroys (can : Str → Bool) (q : Str) (hq : can q = true) (as : List Act) (hbad : ∃ a ∈ as, ¬ Fine can a) :
    ∃ b e, ∀ fs, (exec can fs (.openW q :: as)).2 = .error e ∧ (exec can fs (.openW q :: as)).1 q = b := by
  obtain ⟨e, he⟩ := exec_bad can as hbad (FS.set (fun _ => none) q [])
  refine ⟨(exec can (FS.set (fun _ => none) q []) as).1 q, e, fun fs => ?_⟩
  simp only [exec, hq, if_true]
  have := exec_same can q as (FS.set fs q []) (FS.set (fun _ => none) q []) (by simp [FS.set])
  exact ⟨this.1.trans he, this.2⟩

/-- **C48 is violated in all other states**: `write` raises, and what the file held before is
lost, whatever it was. -/
theorem C48_fails (E : Env) (can : Str → Bool) (p : Str)
    (hcan : can p = true ∧ can (datName p) = true) (w : Writer) (hw : ¬ Safe E w) :
    ∃ b e, ∀ fs, (write E can fs p w).2 = .error e ∧ (write E can fs p w).1 (w.target p) = b := by
  obtain ⟨hp, hd⟩ := hcan
  cases w with
  | notImpl => exact absurd trivial hw
  | linear => exact absurd trivial hw
  | unbound => exact destroys can p hp _ ⟨_, List.mem_singleton.2 rfl, fun ⟨b, hb⟩ => nomatch hb⟩
  | rosco keys =>
    cases keys with
    | false => exact absurd rfl hw
    | true =>
      exact destroys can p hp _ ⟨_, List.mem_cons_of_mem _ (List.mem_singleton.2 rfl), fun ⟨b, hb⟩ => nomatch hb⟩
  | fastInput sanity es =>
    simp only [Safe, not_or] at hw
    cases sanity with
    | error e => exact absurd ⟨e, rfl⟩ hw.1
    | ok u => exact destroys can p hp _ ⟨_, List.mem_singleton.2 rfl, bad_made E can p _ (inputText_bad E es hw.2)⟩
  | turbsimTS text =>
    cases text with
    | some s => exact absurd (fun h => nomatch h) hw
    | none => exact destroys can p hp _ ⟨_, List.mem_singleton.2 rfl, bad_made E can p _ ⟨_, rfl⟩⟩
  | fastOut names units rows =>
    cases units with
    | some s => exact absurd (fun h => nomatch h) hw
    | none =>
      exact destroys can p hp _ ⟨_, List.mem_cons_of_mem _ (List.mem_cons_self), bad_made E can p _ ⟨_, rfl⟩⟩
  | mann field =>
    simp only [Safe, not_forall, Decidable.not_not] at hw
    obtain ⟨f, rfl, plane, hpl, row, hr, x, hx, hn⟩ := hw
    refine destroys can p hp _ ⟨_, List.mem_map_of_mem (f := fun plane : List (List X) => Act.emit p (packAll E plane.reverse.flatten)) hpl, ?_⟩
    obtain ⟨e, he⟩ := packAll_bad E plane.reverse.flatten
      ⟨x, List.mem_flatten.2 ⟨row, List.mem_reverse.2 hr, hx⟩, hn⟩
    rintro ⟨b, hb⟩
    rw [he] at hb
    exact nomatch hb
  | tecplot title vars ls =>
    cases vars with
    | some s => exact absurd (fun h => nomatch h) hw
    | none =>
      exact destroys can p hp _ ⟨_, List.mem_append_right _ (List.mem_cons_self), bad_made E can p _ ⟨_, rfl⟩⟩
  | hawc2 rows head names descr units =>
    simp only [Safe, not_or] at hw
    obtain ⟨hr, hw⟩ := hw
    cases rows with
    | nil => exact absurd rfl hr
    | cons r rs =>
      refine destroys can (datName p) hd _ ⟨_, List.mem_cons_of_mem _ (List.mem_cons_of_mem _
        (List.mem_cons_of_mem _ (List.mem_singleton.2 rfl))), bad_made E can _ _ ⟨.type, ?_⟩⟩
      cases names with
      | none => rfl
      | some ns =>
        cases descr with
        | none => rfl
        | some ds =>
          cases units with
          | none => rfl
          | some us => exact absurd ⟨nofun, nofun, nofun⟩ hw
  | csv header sep cols data =>
    simp only [Safe, not_or] at hw
    obtain ⟨h1, h2⟩ := hw
    cases header with
    | nil =>
      cases data with
      | none => exact absurd ⟨rfl, rfl⟩ h1
      | some rows =>
        cases sep with
        | some c => exact absurd ⟨nofun, nofun⟩ h2
        | none => exact destroys can p hp _ ⟨_, List.mem_singleton.2 rfl, bad_made E can p _ ⟨_, rfl⟩⟩
    | cons h hs =>
      refine destroys can p hp _ ⟨_, List.mem_cons_of_mem _ (List.mem_singleton.2 rfl), bad_made E can p _ ⟨.attr, ?_⟩⟩
      cases data with
      | none => rfl
      | some rows =>
        cases sep with
        | none => rfl
        | some c => exact absurd ⟨nofun, nofun⟩ h2
  | htc text =>
    cases text with
    | some s => exact absurd (fun h => nomatch h) hw
    | none => exact destroys can p hp _ ⟨_, List.mem_singleton.2 rfl, bad_made E can p _ ⟨_, rfl⟩⟩

/-! Concrete cases. -/

/-- NaN in a table of an OpenFAST input file: ValueError, and the file is empty -/
example : (write toyEnv (fun _ => true) toyFS "x.dat".toList (.fastInput (.ok ()) [.text "head".toList, .table [[.fin 1, .nan]]])).2 = .error .value ∧
    (write toyEnv (fun _ => true) toyFS "x.dat".toList (.fastInput (.ok ()) [.text "head".toList, .table [[.fin 1, .nan]]])).1 "x.dat".toList = some [] := by
  decide +kernel

/-- a Flex profile file: TypeError for every object, and the file is empty -/
example : (write toyEnv (fun _ => true) toyFS "x.dat".toList .unbound).2 = .error .type ∧
    (write toyEnv (fun _ => true) toyFS "x.dat".toList .unbound).1 "x.dat".toList = some [] := by
  decide +kernel

/-- a Mann box with a number too large for four bytes in the second plane: the first plane is left -/
example : (write toyEnv (fun _ => true) toyFS "x.dat".toList (.mann (some [[[.fin 7, .fin 8]], [[.fin 9, .fin 1000]]]))).2 = .error .overflow ∧
    (write toyEnv (fun _ => true) toyFS "x.dat".toList (.mann (some [[[.fin 7, .fin 8]], [[.fin 9, .fin 1000]]]))).1 "x.dat".toList = some [7, 8] := by
  decide +kernel

/-- safe states that raise: the second file of a failing check is untouched -/
example : Safe toyEnv (.fastInput (.error .assertion) [.table [[.nan]]]) ∧
    (write toyEnv (fun _ => true) toyFS "x.dat".toList (.fastInput (.error .assertion) [.table [[.nan]]])).2 = .error .assertion ∧
    (write toyEnv (fun _ => true) toyFS "x.dat".toList (.fastInput (.error .assertion) [.table [[.nan]]])).1 "x.dat".toList = some [1, 2, 3] :=
  ⟨.inl ⟨_, rfl⟩, by decide +kernel, by decide +kernel⟩

/-- what HTC files cannot print (see `C35_atTime_fails`) destroys them when they are saved -/
example (f : Htc.File Htc.tenths.F) (h : Htc.fileText Htc.tenths f = none) (E : Env) (fs : FS) (p : Str) :
    (write E (fun _ => true) fs p (htcWriter Htc.tenths f)).2 = .error .index ∧
    (write E (fun _ => true) fs p (htcWriter Htc.tenths f)).1 p = some [] := by
  simp [htcWriter, h, write, Writer.acts, exec, emitMade, FS.set]

/-! ## C67 -/

/-- **C67 is violated by every linearization object**: writing succeeds and leaves an empty file. -/
theorem C67_fails (E : Env) (hE : E.enc [] = some []) (can : Str → Bool) (p : Str) (hp : can p = true) (fs : FS) :
    (write E can fs p .linear).2 = .ok () ∧ (write E can fs p .linear).1 p = some [] := by
  simp [write, Writer.acts, exec, emitText, hE, hp, FS.set]

example : toyEnv.enc [] = some [] := rfl

theorem exec_grows (can : Str → Bool) (p : Str) (as : List Act) (hno : ∀ q, .openW q ∈ as → q ≠ p) (fs : FS)
    (h : (∃ b, fs p = some b ∧ b ≠ []) ∨ (∃ b, .emit p (.ok b) ∈ as ∧ b ≠ []))
    (hok : (exec can fs as).2 = .ok ()) : ∃ b, (exec can fs as).1 p = some b ∧ b ≠ [] := by
  induction as generalizing fs with
  | nil =>
    rcases h with h | ⟨b, h, _⟩
    · exact h
    · simp at h
  | cons a as ih =>
    have hno' := fun q hq => hno q (List.mem_cons_of_mem a hq)
    cases a with
    | check r =>
      cases r with
      | error e => exact nomatch hok
      | ok u =>
        refine ih hno' fs ?_ hok
        rcases h with h | ⟨b, h, hb⟩
        · exact .inl h
        · exact .inr ⟨b, by simpa using h, hb⟩
    | openW q =>
      simp only [exec] at hok ⊢
      by_cases hc : can q = true
      · rw [if_pos hc] at hok ⊢
        refine ih hno' _ ?_ hok
        rcases h with ⟨b, h, hb⟩ | ⟨b, h, hb⟩
        · refine .inl ⟨b, ?_, hb⟩
          have : p ≠ q := fun h => hno q (List.mem_cons_self) h.symm
          simp [FS.set, this, h]
        · exact .inr ⟨b, by simpa using h, hb⟩
      · rw [if_neg hc] at hok
        exact nomatch hok
    | emit q r =>
      cases r with
      | error e => exact nomatch hok
      | ok c =>
        refine ih hno' _ ?_ hok
        by_cases hq : p = q
        · subst hq
          rcases h with ⟨b, h, hb⟩ | ⟨b, h, hb⟩
          · exact .inl ⟨b ++ c, by simp [FS.set, h], by simp [hb]⟩
          · rcases List.mem_cons.1 h with h | h
            · injection h with _ h
              injection h with h
              subst h
              exact .inl ⟨(fs p).getD [] ++ b, by simp [FS.set], by simp [hb]⟩
            · exact .inr ⟨b, h, hb⟩
        · rcases h with ⟨b, h, hb⟩ | ⟨b, h, hb⟩
          · exact .inl ⟨b, by simp [FS.set, hq, h], hb⟩
          · rcases List.mem_cons.1 h with h | h
            · injection h with h _
              exact absurd h hq
            · exact .inr ⟨b, h, hb⟩

/-- something is there to be written -/
def Something : Writer → Prop
  | .linear => False
  | .fastInput _ es => 2 ≤ es.length
  | .turbsimTS text => text ≠ some []
  | .mann field => ∃ x plane row f, field = some f ∧ plane ∈ f ∧ row ∈ plane ∧ x ∈ row
  | .htc text => text ≠ some []
  | _ => True
theorem getLast_append (a : Str) (b : Str) (c : Char) : (a ++ (b ++ [c])).getLast? = some c := by
  rw [← List.append_assoc, List.getLast?_append]
  simp

theorem datName_last (p : Str) : (datName p).getLast? = some 't' := by
  unfold datName
  split
  · rename_i h
    obtain ⟨t, ht⟩ := List.isSuffixOf_iff_suffix.1 h
    rw [← ht]
    exact getLast_append t ['.', 'd', 'a'] 't'
  · split
    · exact getLast_append _ ['.', 'd', 'a'] 't'
    · exact getLast_append p ['.', 'd', 'a'] 't'

theorem sel_ne_dat (p : Str) : selName p ≠ datName p := by
  intro h
  have h1 := datName_last p
  rw [← h] at h1
  have h2 : (selName p).getLast? = some 'l' := getLast_append _ ['.', 's', 'e'] 'l'
  rw [h2] at h1
  revert h1
  decide

/-- a text that is written, on an open file -/
theorem emitText_mem (E : Env) (hE : ∀ s, s ≠ [] → E.enc s ≠ some []) (can : Str → Bool) (p s : Str) (hs : s ≠ []) (as : List Act)
    (hm : emitText E p s ∈ as) (hf : Fine can (emitText E p s)) : ∃ b, .emit p (.ok b) ∈ as ∧ b ≠ [] := by
  obtain ⟨b, hb⟩ := hf
  cases he : E.enc s with
  | none => rw [he] at hb; exact nomatch hb
  | some c =>
    refine ⟨c, ?_, fun h => hE s hs (by rw [he, h])⟩
    have : emitText E p s = .emit p (.ok c) := by simp only [emitText, he]
    exact this ▸ hm

theorem ok_fine (can : Str → Bool) (as : List Act) (fs : FS) (h : (exec can fs as).2 = .ok ()) : ∀ a ∈ as, Fine can a := by
  intro a ha
  by_cases hf : Fine can a
  · exact hf
  · obtain ⟨e, he⟩ := exec_bad can as ⟨a, ha, hf⟩ fs
    rw [he] at h
    exact nomatch h

theorem inputText_ne (E : Env) (es : List Ent) (h : 2 ≤ es.length) (s : Str) (hs : inputText E es = .ok s) : s ≠ [] := by
  match es, h with
  | a :: b :: es, _ =>
    rintro rfl
    have hj : joinAll ['\n'] (entText E a :: entText E b :: es.map (entText E)) = .ok [] := hs
    rw [joinAll.eq_def] at hj
    simp only at hj
    · cases h1 : entText E a with
      | error e => rw [h1] at hj; exact nomatch hj
      | ok s1 =>
        rw [h1] at hj
        simp only at hj
        cases h2 : joinAll ['\n'] (entText E b :: es.map (entText E)) with
        | error e => rw [h2] at hj; exact nomatch hj
        | ok s2 =>
          rw [h2] at hj
          injection hj with hj
          simp at hj

theorem packAll_ne (E : Env) (hP : ∀ x, E.pack x ≠ some []) (l : List X) (h : l ≠ []) (b : Bytes) (hb : packAll E l = .ok b) : b ≠ [] := by
  cases l with
  | nil => exact absurd rfl h
  | cons x l =>
    rintro rfl
    cases hx : E.pack x with
    | none => simp only [packAll, hx] at hb; exact nomatch hb
    | some c =>
      simp only [packAll, hx] at hb
      cases hl : packAll E l with
      | error e => rw [hl] at hb; exact nomatch hb
      | ok d =>
        rw [hl] at hb
        injection hb with hb
        have : c = [] := (List.append_eq_nil_iff.1 hb).1
        exact hP x (this ▸ hx)

/-- **C67** for all objects that have something to write: a successful `write` leaves a file that
is not empty (so that reading it again does not raise EmptyFileError). -/
theorem C67_partial (E : Env) (hE : ∀ s, s ≠ [] → E.enc s ≠ some []) (hP : ∀ x, E.pack x ≠ some []) (can : Str → Bool) (p : Str)
    (w : Writer) (hw : Something w) (fs : FS) (hok : (write E can fs p w).2 = .ok ()) :
    ∃ b, (write E can fs p w).1 (w.target p) = some b ∧ b ≠ [] := by
  have hf := ok_fine can _ fs hok
  have key : ∀ (q : Str) (as : List Act), (∀ a ∈ as, Fine can a) → can q = true →
      (∀ q', .openW q' ∈ as → q' ≠ q) → (∃ b, .emit q (.ok b) ∈ as ∧ b ≠ []) →
      ∃ b, (exec can fs (.openW q :: as)).1 q = some b ∧ b ≠ [] := by
    intro q as h1 h2 h3 h4
    simp only [exec, h2, if_true]
    exact exec_grows can q as h3 _ (.inr h4) (exec_fine can as h1 _)
  have sub : ∀ {a : Act} {as : List Act}, (∀ b ∈ a :: as, Fine can b) → ∀ b ∈ as, Fine can b :=
    fun h b hb => h b (List.mem_cons_of_mem _ hb)
  have hd : ∀ {a : Act} {as : List Act}, (∀ b ∈ a :: as, Fine can b) → Fine can a :=
    fun h => h _ (List.mem_cons_self)
  cases w with
  | notImpl => exact nomatch hok
  | linear => exact hw.elim
  | unbound =>
    obtain ⟨b, hb⟩ := hd (sub hf)
    exact nomatch hb
  | rosco keys =>
    obtain ⟨b, hb⟩ := hd (sub (sub (sub hf)))
    exact nomatch hb
  | fastInput sanity es =>
    obtain rfl : sanity = .ok () := hd hf
    refine key p _ (sub (sub hf)) (hd (sub hf)) (fun q hq => ?_) ?_
    · have := List.mem_singleton.1 hq
      unfold emitMade at this
      split at this <;> exact nomatch this
    · have h := hd (sub (sub hf))
      cases ht : inputText E es with
      | error e => rw [ht] at h; obtain ⟨b, hb⟩ := h; exact nomatch hb
      | ok s =>
        rw [ht] at h
        exact emitText_mem E hE can p s (inputText_ne E es hw s ht) _ (List.mem_singleton.2 rfl) h
  | turbsimTS text =>
    cases text with
    | none => obtain ⟨b, hb⟩ := hd (sub hf); exact nomatch hb
    | some s =>
      refine key p _ (sub hf) (hd hf) (fun q hq => nomatch List.mem_singleton.1 hq) ?_
      exact emitText_mem E hE can p s (fun h => hw (by rw [h])) _ (List.mem_singleton.2 rfl) (hd (sub hf))
  | htc text =>
    cases text with
    | none => obtain ⟨b, hb⟩ := hd (sub hf); exact nomatch hb
    | some s =>
      refine key p _ (sub hf) (hd hf) (fun q hq => nomatch List.mem_singleton.1 hq) ?_
      exact emitText_mem E hE can p s (fun h => hw (by rw [h])) _ (List.mem_singleton.2 rfl) (hd (sub hf))
  | fastOut names units rows =>
    cases units with
    | none => obtain ⟨b, hb⟩ := hd (sub (sub hf)); exact nomatch hb
    | some us =>
      refine key p _ (sub hf) (hd hf) (fun q hq => ?_) ?_
      · simp [emitText, emitMade] at hq
      · exact emitText_mem E hE can p _ (by simp) _ (List.mem_cons_self) (hd (sub hf))
  | mann field =>
    obtain ⟨x, plane, row, f, rfl, h1, h2, h3⟩ := hw
    refine key p _ (sub (sub hf)) (hd (sub hf)) (fun q hq => ?_) ?_
    · obtain ⟨_, _, h⟩ := List.mem_map.1 hq
      exact nomatch h
    · have hm : Act.emit p (packAll E plane.reverse.flatten) ∈ f.map (fun plane => Act.emit p (packAll E plane.reverse.flatten)) :=
        List.mem_map_of_mem (f := fun plane : List (List X) => Act.emit p (packAll E plane.reverse.flatten)) h1
      obtain ⟨b, hb⟩ := sub (sub hf) _ hm
      refine ⟨b, hb ▸ hm, packAll_ne E hP _ ?_ b hb⟩
      exact List.ne_nil_of_mem (List.mem_flatten.2 ⟨row, List.mem_reverse.2 h2, h3⟩)
  | tecplot title vars ls =>
    cases vars with
    | none =>
      obtain ⟨b, hb⟩ := sub hf _ (List.mem_append_right _ (List.mem_cons_self))
      exact nomatch hb
    | some vs =>
      refine key p _ (sub hf) (hd hf) (fun q hq => ?_) ?_
      · cases title <;> simp [emitText, emitMade] at hq
      · exact emitText_mem E hE can p ("VARIABLES = ".toList ++ joinWith [','] vs ++ ['\n']) (by simp) _
          (List.mem_append_right _ (List.mem_cons_self)) (sub hf _ (List.mem_append_right _ (List.mem_cons_self)))
  | hawc2 rows head names descr units =>
    cases rows with
    | nil => exact nomatch hok
    | cons r rs =>
      refine key (datName p) _ (sub (sub hf)) (hd (sub hf)) (fun q hq => ?_) ?_
      · simp only [List.mem_cons, List.not_mem_nil, or_false] at hq
        rcases hq with h | h | h | h
        · exact nomatch h
        · injection h with h; subst h; exact sel_ne_dat p
        · exact nomatch h
        · unfold emitMade at h
          split at h <;> exact nomatch h
      · exact emitText_mem E hE can (datName p) _ (by simp [unlines]) _ (List.mem_cons_self) (hd (sub (sub hf)))
  | csv header sep cols data =>
    cases header with
    | nil =>
      cases data with
      | none => exact nomatch hok
      | some rows =>
        cases sep with
        | none => obtain ⟨b, hb⟩ := hd (sub hf); exact nomatch hb
        | some c =>
          refine key p _ (sub hf) (hd hf) (fun q hq => nomatch List.mem_singleton.1 hq) ?_
          exact emitText_mem E hE can p _ (by simp [unlines]) _ (List.mem_singleton.2 rfl) (hd (sub hf))
    | cons h hs =>
      refine key p _ (sub hf) (hd hf) (fun q hq => ?_) ?_
      · simp only [List.mem_cons, List.not_mem_nil, or_false] at hq
        rcases hq with h | h
        · exact nomatch h
        · unfold emitMade at h
          split at h <;> exact nomatch h
      · exact emitText_mem E hE can p _ (by simp [unlines]) _ (List.mem_cons_self) (hd (sub hf))

/-- an OpenFAST input file of two lines -/
example : (write toyEnv (fun _ => true) toyFS "x.dat".toList (.fastInput (.ok ()) [.text [], .text []])).1 "x.dat".toList = some [10] ∧
    Something (.fastInput (.ok ()) [.text [], .text []]) :=
  ⟨by decide +kernel, by simp [Something]⟩

end Verif.Writers
