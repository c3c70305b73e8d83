import Verif.Spec.HtcAdd
import Verif.Lemmas.HtcEdit
/-!
# Lemmas on adding sections to HAWC2 files
-/
namespace Verif.HtcAdd
open Verif.Py Verif.HtcEdit

theorem setItem_new {V : Type} (d : Kids V) (k : Str) (v : List V) (h : k ∉ d.map Prod.fst) (hp : ¬ ['_', '_'] <:+: k) :
    setItem d k v = d ++ [(k, .line k v [])] := by
  rw [setItem, Htc.cut2_id k hp, Htc.newKey, if_pos h]

theorem members_lines {V : Type} (kids : Kids V) (members : List (Str × List V)) (h : Fresh kids members) :
    members.foldl (fun d m => setItem d m.1 m.2) kids = withLines kids members := by
  induction members generalizing kids with
  | nil => simp [withLines]
  | cons m ms ih =>
    have h1 := h.nodup
    rw [List.map_cons, List.nodup_cons] at h1
    rw [List.foldl_cons, setItem_new kids m.1 m.2 (h.new m.1 (by simp)) (h.plain m.1 (by simp)), ih]
    · simp [withLines]
    · refine ⟨h1.2, ?_, fun k hk => h.plain k (by simp only [List.map_cons, List.mem_cons]; exact Or.inr hk)⟩
      intro k hk hm
      rw [List.map_append, List.mem_append] at hm
      rcases hm with hm | hm
      · exact h.new k (by simp only [List.map_cons, List.mem_cons]; exact Or.inr hk) hm
      · simp only [List.map_cons, List.map_nil, List.mem_singleton] at hm
        exact h1.1 (hm ▸ hk)

theorem newSection_plain {V : Type} (isNum : Str → Bool) (name : Str) (given : Option (Item V)) (h1 : name ≠ "output".toList)
    (h2 : ¬ "output_at_time".toList <+: name) : newSection isNum name given = .ok (given.getD (.sec (strip name) [] [] [])) := by
  unfold newSection
  rw [if_neg h1, if_neg (by rw [startsWith, List.isPrefixOf_iff_prefix]; exact h2)]

theorem addSection_new {V : Type} (isNum : Str → Bool) (d : Kids V) (name : Str) (members : List (Str × List V)) (given : Option (Item V)) (dup : Bool)
    (s : Item V) (hs : newSection isNum name given = .ok s) (h : name ∉ d.map Prod.fst ∨ dup = true) :
    addSection isNum d name members given dup = .ok (d ++ [(Htc.newKey (d.map Prod.fst) (nameOf s), setMembers s members)], setMembers s members) := by
  have hl : (if dup then none else look name d) = none := by
    rcases h with h | rfl
    · rw [(look_none_iff name d).2 h, ite_self]
    · rfl
  unfold addSection
  rw [hl, hs]

end Verif.HtcAdd
