import Verif.Spec.NetCdf
import Verif.Py.Dec
/-!
# Lemmas on the tables of a NetCDF file
-/
namespace Verif.NetCdf
open Verif.Py

theorem chunks_get {V : Type} (n m i : Nat) (l : List V) (hi : i < m) : (chunks n m l)[i]? = some ((l.drop (i * n)).take n) := by
  induction m generalizing i l with
  | zero => exact absurd hi (Nat.not_lt_zero _)
  | succ m ih =>
    cases i with
    | zero => simp [chunks]
    | succ i =>
      rw [chunks, List.getElem?_cons_succ, ih i _ (by omega), List.drop_drop]
      congr 3
      rw [Nat.succ_mul]; omega

theorem chunks_length {V : Type} (n m : Nat) (l : List V) : (chunks n m l).length = m := by
  induction m generalizing l with
  | zero => rfl
  | succ m ih => rw [chunks, List.length_cons, ih]

theorem frame_mem {V : Type} (s : Dataset V) (k : Str) (a : Arr V) (t : Table V) (hm : (k, a) ∈ s.vars) (hf : frame a = some t) :
    (k, t) ∈ toDataFrame s := by
  rw [toDataFrame, List.mem_filterMap]
  exact ⟨(k, a), hm, by rw [hf]; rfl⟩

end Verif.NetCdf
