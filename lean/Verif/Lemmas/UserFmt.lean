import Verif.Spec.UserFmt
import Verif.Lemmas.Hawc2Sel
/-!
# Lemmas on the user folder
-/
namespace Verif.UserFmt
open Verif.Py

theorem isFile_iff (c : Cls) : isFile c = true ↔ FileClass c := by
  have h := Hawc2Sel.find_isSome "error".toList (lower c.name)
  rw [isFile, FileClass, ← Hawc2Sel.find_isSome, ← h]
  cases (find "error".toList (lower c.name)) <;> simp

theorem pick_none : ∀ l, pick l = none → ∀ m ∈ l, ∀ d, m.2 = some d → ¬ FileClass d
  | [], _ => by simp
  | (n, none) :: r, h => by
    intro m hm d hd
    rcases List.mem_cons.1 hm with rfl | hm
    · cases hd
    · exact pick_none r h m hm d hd
  | (n, some c) :: r, h => by
    rw [pick] at h
    cases hc : isFile c with
    | true => rw [if_pos hc] at h; cases h
    | false =>
      rw [if_neg (by simp [hc])] at h
      intro m hm d hd
      rcases List.mem_cons.1 hm with rfl | hm
      · obtain rfl : c = d := Option.some.inj hd
        rw [← isFile_iff, hc]
        simp
      · exact pick_none r h m hm d hd

theorem pick_some : ∀ l c, pick l = some c → ∃ pre n post, l = pre ++ (n, some c) :: post ∧ FileClass c ∧ ∀ m ∈ pre, ∀ d, m.2 = some d → ¬ FileClass d
  | [], _, h => by cases h
  | (n, none) :: r, c, h => by
    obtain ⟨pre, k, post, e, hc, hp⟩ := pick_some r c h
    refine ⟨(n, none) :: pre, k, post, by rw [e]; rfl, hc, ?_⟩
    intro m hm d hd
    rcases List.mem_cons.1 hm with rfl | hm
    · cases hd
    · exact hp m hm d hd
  | (n, some b) :: r, c, h => by
    rw [pick] at h
    cases hb : isFile b with
    | true =>
      rw [if_pos hb] at h
      obtain rfl : b = c := Option.some.inj h
      exact ⟨[], n, r, rfl, (isFile_iff b).1 hb, by simp⟩
    | false =>
      rw [if_neg (by simp [hb])] at h
      obtain ⟨pre, k, post, e, hc, hp⟩ := pick_some r c h
      refine ⟨(n, some b) :: pre, k, post, by rw [e]; rfl, hc, ?_⟩
      intro m hm d hd
      rcases List.mem_cons.1 hm with rfl | hm
      · obtain rfl : b = d := Option.some.inj hd
        rw [← isFile_iff, hb]
        simp
      · exact hp m hm d hd

theorem not_init (f : UFile) (h : InFolder f) : f.path ≠ "__init__.py".toList := by
  intro e
  rw [InFolder, e] at h
  exact absurd h (by decide)

theorem loop_ignore : ∀ (fs : List UFile) (acc : Res), (∀ f ∈ fs, InFolder f) →
    ∃ cs ps es, loop true acc fs = .ok ⟨acc.classes ++ cs, acc.paths ++ ps, acc.errors ++ es⟩ ∧ Collected fs cs ps es
  | [], acc, _ => ⟨[], [], [], by simp [loop], .nil⟩
  | f :: fs, acc, h => by
    have hf := not_init f (h f (by simp))
    have hfs : ∀ f ∈ fs, InFolder f := fun g hg => h g (by simp [hg])
    rw [loop, if_neg hf]
    cases hl : f.load with
    | raises =>
      obtain ⟨cs, ps, es, e, hc⟩ := loop_ignore fs { acc with errors := acc.errors ++ [.importing f.path] } hfs
      exact ⟨cs, ps, .importing f.path :: es, by simpa using e, .fail f fs _ cs ps es (.inl ⟨hl, rfl⟩) hc⟩
    | members l =>
      cases hp : pick l with
      | none =>
        obtain ⟨cs, ps, es, e, hc⟩ := loop_ignore fs { acc with errors := acc.errors ++ [.noClass f.path] } hfs
        exact ⟨cs, ps, .noClass f.path :: es, by simpa [hp] using e, .fail f fs _ cs ps es (.inr ⟨l, hl, rfl, pick_none l hp⟩) hc⟩
      | some c =>
        obtain ⟨cs, ps, es, e, hc⟩ := loop_ignore fs { acc with classes := acc.classes ++ [c], paths := acc.paths ++ [f.path] } hfs
        obtain ⟨pre, n, post, el, hcl, hpre⟩ := pick_some l c hp
        exact ⟨c :: cs, f.path :: ps, es, by simpa [hp] using e, .offer f fs c cs ps es ⟨pre, n, post, by rw [hl, el], hcl, hpre⟩ hc⟩

theorem loop_strict : ∀ (fs : List UFile) (acc : Res) (cs ps es), (∀ f ∈ fs, InFolder f) → Collected fs cs ps es →
    loop false acc fs = match es with
      | [] => .ok ⟨acc.classes ++ cs, acc.paths ++ ps, acc.errors⟩
      | e :: _ => .error e := by
  intro fs
  induction fs with
  | nil => intro acc cs ps es _ h; cases h; simp [loop]
  | cons f fs ih =>
    intro acc cs ps es h hc
    have hf := not_init f (h f (by simp))
    have hfs : ∀ f ∈ fs, InFolder f := fun g hg => h g (by simp [hg])
    rw [loop, if_neg hf]
    cases hc with
    | offer _ _ c cs ps es ho hr =>
      obtain ⟨pre, n, post, hl, hcl, hpre⟩ := ho
      have hp : pick (pre ++ (n, some c) :: post) = some c := by
        clear hl
        induction pre with
        | nil => rw [List.nil_append, pick, if_pos ((isFile_iff c).2 hcl)]
        | cons m pre ihp =>
          have hm := hpre m (by simp)
          have ihp := ihp (fun m hm => hpre m (by simp [hm]))
          obtain ⟨k, o⟩ := m
          cases o with
          | none => rw [List.cons_append, pick]; exact ihp
          | some d =>
            have := hm d rfl
            rw [← isFile_iff] at this
            rw [List.cons_append, pick, if_neg this]
            exact ihp
      rw [hl]
      simp only [hp]
      rw [ih _ cs ps es hfs hr]
      cases es <;> simp
    | fail _ _ e cs ps es hfl hr =>
      rcases hfl with ⟨hl, rfl⟩ | ⟨l, hl, rfl, hno⟩
      · rw [hl]
        rfl
      · have hp : pick l = none := by
          cases hp : pick l with
          | none => rfl
          | some c =>
            obtain ⟨pre, n, post, e, hc, _⟩ := pick_some l c hp
            exact absurd hc (hno (n, some c) (by rw [e]; simp) c rfl)
        rw [hl]
        simp only [hp]
        rfl

end Verif.UserFmt
