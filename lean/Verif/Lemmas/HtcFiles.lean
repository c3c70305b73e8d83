import Verif.Spec.HtcFiles
import Verif.Lemmas.HtcQuery
import Verif.Lemmas.Path
/-!
# Lemmas on the files that a HAWC2 file names
-/
namespace Verif.HtcFiles
open Verif.Py Verif.HtcEdit Verif.HtcQuery

theorem seqE_mem {α : Type} (l : List (Except Err α)) (r : List α) (h : seqE l = .ok r) : ∀ e ∈ l, ∃ a ∈ r, e = .ok a := by
  induction l generalizing r with
  | nil => intro e he; cases he
  | cons x l ih =>
    intro e he
    cases x with
    | error _ => cases h
    | ok a =>
      rw [seqE] at h
      cases hl : seqE l with
      | error _ => rw [hl] at h; cases h
      | ok l' =>
        rw [hl] at h
        simp only [Except.ok.injEq] at h
        subst h
        rcases List.mem_cons.1 he with rfl | he
        · exact ⟨a, by simp, rfl⟩
        · obtain ⟨b, hb, e'⟩ := ih l' hl e he
          exact ⟨b, by simp [hb], e'⟩

theorem catE_mem {α : Type} (l : List (Except Err (List α))) (r : List α) (h : catE l = .ok r) : ∀ e ∈ l, ∃ a, e = .ok a ∧ ∀ x ∈ a, x ∈ r := by
  intro e he
  rw [catE] at h
  cases hl : seqE l with
  | error _ => rw [hl] at h; cases h
  | ok l' =>
    rw [hl] at h
    simp only [Except.ok.injEq] at h
    subst h
    obtain ⟨a, ha, e'⟩ := seqE_mem l l' hl e he
    exact ⟨a, e', fun x hx => List.mem_flatten.2 ⟨a, ha, hx⟩⟩

theorem catE_flatMap {α β : Type} (f : β → Except Err (List α)) (g : β → List α) (l : List β) (h : ∀ x ∈ l, f x = .ok (g x)) :
    catE (l.map f) = .ok (l.flatMap g) := by
  have : seqE (l.map f) = .ok (l.map g) := by
    induction l with
    | nil => rfl
    | cons x l ih =>
      rw [List.map_cons, h x (by simp), seqE, ih (fun x hx => h x (by simp [hx]))]
      rfl
  rw [catE, this, List.flatMap_def]

theorem paths_text (fix : Str → Str) (c : Char) (s : Str) (l : List (Option Val)) : paths fix (some (.text (c :: s)) :: l) = match paths fix l with
    | .error e => .error e
    | .ok l => .ok (fix (c :: s) :: l) := by
  cases h : paths fix l <;> simp [paths, h]

theorem paths_mem (fix : Str → Str) (l : List (Option Val)) (r : List Str) (h : paths fix l = .ok r) (f : Str) (hne : f ≠ [])
    (hf : some (.text f) ∈ l) : fix f ∈ r := by
  induction l generalizing r with
  | nil => cases hf
  | cons x l ih =>
    rcases List.mem_cons.1 hf with rfl | hf'
    · cases f with
      | nil => exact absurd rfl hne
      | cons c f =>
        rw [paths_text] at h
        cases hl : paths fix l with
        | error _ => rw [hl] at h; cases h
        | ok l' =>
          rw [hl] at h
          simp only [Except.ok.injEq] at h
          subst h
          simp
    · cases x with
      | none => rw [paths] at h; exact ih r h hf'
      | some v =>
        cases v with
        | num n =>
          by_cases hn : n = 0
          · subst hn; rw [paths] at h; exact ih r h hf'
          · rw [paths] at h
            · cases h
            · exact hn
        | text s =>
          cases s with
          | nil => rw [paths] at h; exact ih r h hf'
          | cons c s =>
            rw [paths_text] at h
            cases hl : paths fix l with
            | error _ => rw [hl] at h; cases h
            | ok l' =>
              rw [hl] at h
              simp only [Except.ok.injEq] at h
              subst h
              exact List.mem_cons_of_mem _ (ih l' hl hf')

theorem valuesAt_one (d : Kids Val) (k : Str) (vals : List Val) (h : valuesAt [k] d = some vals) : ∃ n c, look k d = some (.line n vals c) := by
  rw [valuesAt_cons] at h
  cases hl : look k d with
  | none => rw [hl] at h; cases h
  | some x =>
    rw [hl] at h
    cases x with
    | line n v c =>
      simp only [if_true, Option.some.injEq] at h
      subst h
      exact ⟨n, c, rfl⟩
    | sec _ _ _ kids => cases h
    | out _ _ _ kids _ => cases h

theorem valuesAt_more (d : Kids Val) (k k' : Str) (p : List Str) (vals : List Val) (h : valuesAt (k :: k' :: p) d = some vals) :
    ∃ x kids, look k d = some x ∧ kidsOf x = some kids ∧ valuesAt (k' :: p) kids = some vals := by
  rw [valuesAt_cons] at h
  cases hl : look k d with
  | none => rw [hl] at h; cases h
  | some x =>
    rw [hl] at h
    cases x with
    | line n v c => cases h
    | sec _ _ _ kids => exact ⟨_, kids, rfl, rfl, h⟩
    | out _ _ _ kids _ => exact ⟨_, kids, rfl, rfl, h⟩

theorem inSec_names {d : Kids Val} {k k' : Str} {p : List Str} {i : Nat} {f : Str} (h : Names d (k :: k' :: p) i f) (g : Kids Val → Except Err (List (Option Val))) :
    ∃ kids, inSec d k g = g kids ∧ Names kids (k' :: p) i f := by
  obtain ⟨hne, vals, h1, h2⟩ := h
  obtain ⟨x, kids, h3, h4, h5⟩ := valuesAt_more d k k' p vals h1
  exact ⟨kids, by rw [inSec, h3]; simp only [h4], hne, vals, h5, h2⟩

theorem getAt_names {d : Kids Val} {k : Str} {i : Nat} {f : Str} (h : Names d [k] i f) : getAt d k i = .ok (some (.text f)) := by
  obtain ⟨-, vals, h1, h2⟩ := h
  obtain ⟨n, c, h3⟩ := valuesAt_one d k vals h1
  rw [getAt, h3]
  simp only [valAt, h2]

theorem needAt_names {d : Kids Val} {k : Str} {f : Str} (h : Names d [k] 0 f) : needAt d k = .ok (some (.text f)) := by
  obtain ⟨-, vals, h1, h2⟩ := h
  obtain ⟨n, c, h3⟩ := valuesAt_one d k vals h1
  rw [needAt, h3]
  simp only [valAt, h2]

/-- a name among those that are read one after the other -/
theorem seqE_has (l : List (Except Err (Option Val))) (r : List (Option Val)) (h : seqE l = .ok r) (v : Option Val) (hv : Except.ok v ∈ l) : v ∈ r := by
  obtain ⟨a, ha, e⟩ := seqE_mem l r h _ hv
  simp only [Except.ok.injEq] at e
  exact e ▸ ha

theorem catE_has (l : List (Except Err (List (Option Val)))) (r : List (Option Val)) (h : catE l = .ok r) (e : Except Err (List (Option Val))) (he : e ∈ l)
    (v : Option Val) (hv : ∀ a, e = .ok a → v ∈ a) : v ∈ r := by
  obtain ⟨a, h1, h2⟩ := catE_mem l r h e he
  exact h2 v (hv a h1)

theorem getItem_key (d : Kids Val) (k : Str) (h1 : '.' ∉ k) (h2 : '/' ∉ k) : getItem d k = match look k d with
    | none => .error .key
    | some x => .ok x := by
  rw [getItem_follow d [k] k (.one k h1 h2), follow]
  cases look k d <;> rfl

theorem look_of_mem {α : Type} (d : List (Str × α)) (hd : (d.map Prod.fst).Nodup) (q : Str × α) (hq : q ∈ d) : look q.1 d = some q.2 := by
  induction d with
  | nil => cases hq
  | cons p d ih =>
    obtain ⟨a, b⟩ := p
    rw [List.map_cons, List.nodup_cons] at hd
    rcases List.mem_cons.1 hq with rfl | hq
    · rw [look, if_pos rfl]
    · rw [look, if_neg (fun (e : a = q.1) => hd.1 (e ▸ List.mem_map.2 ⟨q, hq, rfl⟩)), ih hd.2 hq]

theorem follow_values {d : Kids Val} {p : List Str} {vals : List Val} (h : valuesAt p d = some vals) : ∃ n c, follow d p = .ok (.line n vals c) := by
  induction p generalizing d with
  | nil => cases h
  | cons k p ih =>
    cases p with
    | nil =>
      obtain ⟨n, c, h3⟩ := valuesAt_one d k vals h
      exact ⟨n, c, by rw [follow, h3]; rfl⟩
    | cons k' p =>
      obtain ⟨x, kids, h3, h4, h5⟩ := valuesAt_more d k k' p vals h
      obtain ⟨n, c, h7⟩ := ih h5
      refine ⟨n, c, ?_⟩
      rw [← h7, follow, h3]
      simp only [walk, h4]
      rfl

theorem pathFile_values {d : Kids Val} {p : List Str} {t : Str} {vals : List Val} {v : Val} (hp : PathText p t) (h : valuesAt p d = some vals)
    (hv : vals[0]? = some v) : pathFile d t = .ok [some v] := by
  obtain ⟨n, c, h2⟩ := follow_values h
  rw [pathFile, getItem_follow d p t hp, h2]
  simp only [valAt, hv]

theorem pathFile_names {d : Kids Val} {p : List Str} {t f : Str} (hp : PathText p t) (h : Names d p 0 f) : pathFile d t = .ok [some (.text f)] := by
  obtain ⟨-, vals, h1, h2⟩ := h
  exact pathFile_values hp h1 h2

theorem pathFile_ends {d : Kids Val} {p : List Str} {t : Str} (hp : PathText p t) (h : Ends d p) : pathFile d t = .ok [] := by
  rw [pathFile, getItem_follow d p t hp, follow_ends h]

theorem ends_values {d : Kids Val} {p : List Str} (h : Ends d p) : valuesAt p d = none := by
  induction h with
  | here d k ks h => rw [valuesAt_cons, (look_none_iff k d).2 h]
  | sec d kids k ks hs h ih => rw [valuesAt_sec k ks d kids hs, ih]

/-- the values that are there -/
def found (o : Option Val) : List (Option Val) :=
  match o with
  | none => []
  | some v => [some v]

theorem found_filter {β : Type} (o : β → Option Val) (l : List β) :
    (l.flatMap fun c => found (o c)).filterMap (fun x => if x = some (.text []) ∨ x = some (.num 0) then none else x) =
      (l.filterMap o).filter fun v => v ≠ .text [] ∧ v ≠ .num 0 := by
  induction l with
  | nil => rfl
  | cons c l ih =>
    rw [List.flatMap_cons, List.filterMap_append, ih]
    cases hc : o c with
    | none => rw [List.filterMap_cons_none hc]; rfl
    | some v =>
      rw [List.filterMap_cons_some hc, found]
      by_cases hv : v = .text [] ∨ v = .num 0
      · rw [List.filter_cons_of_neg (by simpa [Classical.or_iff_not_imp_left] using hv)]
        simp [hv]
      · rw [List.filter_cons_of_pos (by simpa [not_or] using hv)]
        simp [hv]

theorem wind_free : '.' ∉ "wind".toList ∧ '/' ∉ "wind".toList := by decide +kernel

theorem component_free : ∀ c ∈ ['u', 'v', 'w'], '.' ∉ component c ∧ '/' ∉ component c := by decide +kernel

theorem dots_join (a b sec : Str) (c : Char) : (a ++ ['.']) ++ sec ++ ('.' :: b) ++ [c] = a ++ '.' :: (sec ++ '.' :: (b ++ [c])) := by
  simp

theorem dots_eq (sec : Str) (c : Char) :
    "wind.".toList ++ sec ++ ".filename_".toList ++ [c] = "wind".toList ++ '.' :: (sec ++ '.' :: component c) := by
  have e1 : "wind.".toList = "wind".toList ++ ['.'] := by decide +kernel
  have e2 : ".filename_".toList = '.' :: "filename_".toList := by decide +kernel
  rw [e1, e2]
  exact dots_join _ _ _ _

theorem boxFiles_ok (d wind : Kids Val) (sec : Str) (hs : HasSec d "wind".toList wind) (h1 : '.' ∉ sec) (h2 : '/' ∉ sec) (hb : BoxLines wind sec) :
    boxFiles d sec = .ok (boxNames wind sec) := by
  have hc : ∀ c ∈ ['u', 'v', 'w'], pathFile d ("wind.".toList ++ sec ++ ".filename_".toList ++ [c]) =
      .ok (found ((valuesAt [sec, component c] wind).bind List.head?)) := by
    intro c hc
    have hp : PathText ["wind".toList, sec, component c] ("wind.".toList ++ sec ++ ".filename_".toList ++ [c]) := by
      rw [dots_eq sec c]
      exact .dot _ _ _ wind_free.1 wind_free.2 (.dot _ _ _ h1 h2 (.one _ (component_free c hc).1 (component_free c hc).2))
    rcases hb c hc with ⟨v, vs, hv⟩ | he
    · rw [pathFile_values hp (vals := v :: vs) (v := v) (by rw [valuesAt_sec _ _ d wind hs, hv]) rfl, hv]
      rfl
    · rw [pathFile_ends hp (.sec d wind _ _ hs he), ends_values he]
      rfl
  have hcat := catE_flatMap (fun c : Char => pathFile d ("wind.".toList ++ sec ++ ".filename_".toList ++ [c])) _ ['u', 'v', 'w'] hc
  have e : (["u".toList, "v".toList, "w".toList].map fun c => pathFile d ("wind.".toList ++ sec ++ ".filename_".toList ++ c)) =
      ['u', 'v', 'w'].map fun c => pathFile d ("wind.".toList ++ sec ++ ".filename_".toList ++ [c]) := by
    have : ["u".toList, "v".toList, "w".toList] = ['u', 'v', 'w'].map fun c => [c] := by decide +kernel
    rw [this, List.map_map]
    rfl
  rw [boxFiles, e, hcat]
  simp only
  rw [found_filter (fun c => (valuesAt [sec, component c] wind).bind List.head?), boxNames]

end Verif.HtcFiles
