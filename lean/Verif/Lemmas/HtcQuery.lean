import Verif.Spec.HtcQuery
import Verif.Lemmas.HtcEdit
import Verif.Lemmas.Str
/-!
# Lemmas on the contents of HAWC2 files at paths
-/
namespace Verif.HtcQuery
open Verif.Py Verif.HtcEdit

theorem replace_noSep (k : Str) (h : '.' ∉ k) : replaceChar '.' ['/'] k = k := by
  induction k with
  | nil => rfl
  | cons c k ih =>
    simp only [List.mem_cons, not_or] at h
    have := ih h.2
    rw [replaceChar] at this ⊢
    rw [List.flatMap_cons, this, if_neg (fun e => h.1 e.symm)]
    rfl

theorem replace_append (a b : Str) : replaceChar '.' ['/'] (a ++ b) = replaceChar '.' ['/'] a ++ replaceChar '.' ['/'] b := by
  simp only [replaceChar, List.flatMap_append]

theorem replace_cons (c : Char) (s : Str) : replaceChar '.' ['/'] (c :: s) = (if c = '.' then ['/'] else [c]) ++ replaceChar '.' ['/'] s := by
  simp only [replaceChar, List.flatMap_cons]

theorem keysOf_path (ks : List Str) (t : Str) (h : PathText ks t) : keysOf t = ks := by
  induction h with
  | one k h1 h2 => rw [keysOf, replace_noSep k h1, splitOn_noSep _ _ h2]
  | dot k ks t h1 h2 h ih =>
    rw [keysOf, replace_append, replace_noSep k h1, replace_cons, if_pos rfl, List.singleton_append, splitOn_append _ _ _ h2]
    rw [keysOf] at ih
    rw [ih]
  | slash k ks t h1 h2 h ih =>
    rw [keysOf, replace_append, replace_noSep k h1, replace_cons, if_neg (by decide), List.singleton_append, splitOn_append _ _ _ h2]
    rw [keysOf] at ih
    rw [ih]

/-- the keys followed from a dictionary -/
def follow {V : Type} (d : Kids V) : List Str → Except Err (Item V)
  | [] => .error .key
  | k :: ks => match look k d with
    | none => .error .key
    | some x => walk x ks

theorem getItem_follow {V : Type} (d : Kids V) (ks : List Str) (t : Str) (h : PathText ks t) : getItem d t = follow d ks := by
  rw [getItem, keysOf_path ks t h]
  cases ks <;> rfl

theorem follow_sec {V : Type} (d kids : Kids V) (k : Str) (ks : List Str) (hne : ks ≠ []) (h : HasSec d k kids) : follow d (k :: ks) = follow kids ks := by
  obtain ⟨x, h1, h2⟩ := h
  rw [follow, look_find, h1]
  cases ks with
  | nil => exact absurd rfl hne
  | cons k' ks =>
    rcases h2 with ⟨n, bc, ec, rfl⟩ | ⟨n, bc, ec, ss, rfl⟩ <;> rfl

theorem at_ne {V : Type} {d : Kids V} {ks : List Str} {x : Item V} (h : At d ks x) : ks ≠ [] := by cases h <;> simp

theorem ends_ne {V : Type} {d : Kids V} {ks : List Str} (h : Ends d ks) : ks ≠ [] := by cases h <;> simp

theorem follow_at {V : Type} {d : Kids V} {ks : List Str} {x : Item V} (h : At d ks x) : follow d ks = .ok x := by
  induction h with
  | here d k x h => rw [follow, look_find, h]; rfl
  | sec d kids k ks x hs h ih => rw [follow_sec d kids k ks (at_ne h) hs, ih]

theorem follow_ends {V : Type} {d : Kids V} {ks : List Str} (h : Ends d ks) : follow d ks = .error .key := by
  induction h with
  | here d k ks h => rw [follow, (look_none_iff k d).2 h]
  | sec d kids k ks hs h ih => rw [follow_sec d kids k ks (ends_ne h) hs, ih]

theorem allE_ok {α : Type} (p : α → Except Err Bool) (q : α → Bool) (l : List α) (h : ∀ x ∈ l, p x = .ok (q x)) : allE p l = .ok (l.all q) := by
  induction l with
  | nil => rfl
  | cons x l ih =>
    rw [allE, h x (by simp), ih (fun x hx => h x (by simp [hx]))]
    rfl

theorem filterE_error {α : Type} (p : α → Except Err Bool) (l : List α) (x : α) (hx : x ∈ l) (e : Err) (h : p x = .error e) : ∃ e', filterE p l = .error e' := by
  induction l with
  | nil => cases hx
  | cons y l ih =>
    rw [filterE]
    cases hy : p y with
    | error e' => exact ⟨e', rfl⟩
    | ok b =>
      rcases List.mem_cons.1 hx with rfl | hx
      · rw [h] at hy; cases hy
      · obtain ⟨e', he⟩ := ih hx
        exact ⟨e', by simp only [he]⟩

theorem call_filter {V : Type} [DecidableEq V] (int : Str → Option Nat) (d : Kids V) (name : Str) (kw : List (Str × V)) (f : Item V → Bool)
    (h : ∀ x ∈ items d, picks int name kw x = .ok (f x)) :
    (∀ k x, (d.filter fun q => f q.2) = [(k, x)] → call int d name kw = .ok x) ∧
    ((d.filter fun q => f q.2).length ≠ 1 → call int d name kw = .error .assertion) := by
  obtain ⟨h1, h2⟩ := single_filter d f
  rw [call, filterE_ok _ f _ h]
  constructor
  · intro k x hq
    have := h1 k x hq
    generalize (items d).filter f = l at this
    match l, this with
    | [], h => cases h
    | [y], h => cases h; rfl
    | _ :: _ :: _, h => cases h
  · intro hq
    have := h2 hq
    generalize (items d).filter f = l at this
    match l, this with
    | [], _ => rfl
    | [y], h => cases h
    | _ :: _ :: _, _ => rfl

theorem mem_items {V : Type} (d : Kids V) (k : Str) (x : Item V) (h : (k, x) ∈ d) : x ∈ items d := by
  have hm : x ∈ d.map Prod.snd := List.mem_map.2 ⟨(k, x), h, rfl⟩
  rw [items, List.mem_append, List.mem_filter, List.mem_filter]
  by_cases e : nameOf x = "main_body".toList
  · exact Or.inl ⟨hm, decide_eq_true e⟩
  · exact Or.inr ⟨hm, decide_eq_true e⟩

end Verif.HtcQuery
