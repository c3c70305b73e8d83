import Verif.Model.FastBin
import Verif.Lemmas.Str
/-! Helper lemmas: little-endian integers, `rowsOf`, the buffered reader and the
sequence of writes. -/
namespace Verif.Py

theorem length_leBytes (k n : Nat) : (leBytes k n).length = k := by
  induction k generalizing n with
  | zero => rfl
  | succ k ih => simp [leBytes, ih]

theorem leNat_leBytes (k n : Nat) : leNat (leBytes k n) = n % 256 ^ k := by
  induction k generalizing n with
  | zero => simp [leBytes, leNat, Nat.mod_one]
  | succ k ih =>
    simp only [leBytes, leNat, ih]
    have : (UInt8.ofNat (n % 256)).toNat = n % 256 := by simp
    rw [this, Nat.pow_succ, Nat.mul_comm (256 ^ k) 256, Nat.mod_mul]

theorem unpackInt_packInt (k : Nat) (hk : 0 < k) (x : Int) (bs : Bytes) (h : packInt k x = some bs) :
    unpackInt k bs = x ∧ bs.length = k := by
  unfold packInt at h
  split at h
  · rename_i hx
    injection h with h
    subst h
    refine ⟨?_, length_leBytes _ _⟩
    unfold unpackInt
    have e : (256 : Nat) ^ k = 2 ^ (8 * k) := by
      rw [show (256 : Nat) = 2 ^ 8 from rfl, ← Nat.pow_mul]
    have e2 : (2 : Nat) ^ (8 * k) = 2 * 2 ^ (8 * k - 1) := by
      rw [← Nat.pow_succ']; congr 1; omega
    have e3 : (2 : Int) ^ (8 * k) = 2 * 2 ^ (8 * k - 1) := by
      have := congrArg (Nat.cast (R := Int)) e2
      simpa using this
    rw [leNat_leBytes, e]
    have hpos : (0 : Int) < 2 ^ (8 * k - 1) := Int.pow_pos (by decide)
    generalize hP : (2 : Int) ^ (8 * k - 1) = P at *
    have hPn2 : (((2 ^ (8 * k - 1) : Nat)) : Int) = P := by rw [← hP]; simp
    rw [e2, e3]
    generalize (2 : Nat) ^ (8 * k - 1) = Q at *
    subst hPn2
    by_cases hx0 : 0 ≤ x
    · have h1 : x % (2 * (Q : Int)) = x := Int.emod_eq_of_lt hx0 (by omega)
      rw [h1]
      have h2 : x.toNat % (2 * Q) = x.toNat := Nat.mod_eq_of_lt (by omega)
      rw [h2, if_pos (by omega)]
      omega
    · have h1 : x % (2 * (Q : Int)) = x + 2 * Q := by
        rw [← Int.add_emod_right]
        exact Int.emod_eq_of_lt (by omega) (by omega)
      rw [h1]
      have h2 : (x + 2 * (Q : Int)).toNat % (2 * Q) = (x + 2 * (Q : Int)).toNat :=
        Nat.mod_eq_of_lt (by omega)
      rw [h2, if_neg (by omega)]
      omega
  · exact nomatch h

theorem unpackChar_packChar (c : Char) (b : UInt8) (h : packChar c = some b) : unpackChar b = c := by
  unfold packChar at h
  split at h
  · rename_i hc
    injection h with h
    subst h
    unfold unpackChar
    have : (UInt8.ofNat c.toNat).toNat = c.toNat := by
      simp [UInt8.toNat_ofNat']; omega
    rw [this, Char.ofNat_toNat]
  · exact nomatch h

theorem mapM_some_length {f : α → Option β} : ∀ {l : List α} {r : List β}, l.mapM f = some r →
    r.length = l.length := by
  intro l
  induction l with
  | nil => intro r h; simp at h; subst h; rfl
  | cons a l ih =>
    intro r h
    simp only [List.mapM_cons, Option.bind_eq_bind, Option.pure_def, Option.bind_eq_some_iff] at h
    obtain ⟨b, _, bs, hbs, h⟩ := h
    injection h with h
    subst h
    simp [ih hbs]

theorem map_unpackChar_mapM : ∀ {s : Str} {bs : Bytes}, s.mapM packChar = some bs →
    bs.map unpackChar = s := by
  intro s
  induction s with
  | nil => intro r h; simp at h; subst h; rfl
  | cons a l ih =>
    intro r h
    simp only [List.mapM_cons, Option.bind_eq_bind, Option.pure_def, Option.bind_eq_some_iff] at h
    obtain ⟨b, hb, bs, hbs, h⟩ := h
    injection h with h
    subst h
    simp [ih hbs, unpackChar_packChar a b hb]

theorem mapM_packChar_of (s : Str) (h : ∀ c ∈ s, c.toNat < 256) :
    ∃ bs, s.mapM packChar = some bs := by
  induction s with
  | nil => exact ⟨[], rfl⟩
  | cons a l ih =>
    obtain ⟨bs, hbs⟩ := ih (fun c hc => h c (List.mem_cons_of_mem _ hc))
    refine ⟨UInt8.ofNat a.toNat :: bs, ?_⟩
    simp [List.mapM_cons, hbs, packChar, h a (List.mem_cons_self ..)]

theorem length_rowsOf (k m : Nat) (l : List α) : (rowsOf k m l).length = m := by
  induction m generalizing l with
  | zero => rfl
  | succ m ih => simp [rowsOf, ih]

theorem rowsOf_add (k a b : Nat) (l : List α) :
    rowsOf k (a + b) l = rowsOf k a l ++ rowsOf k b (l.drop (k * a)) := by
  induction a generalizing l with
  | zero => simp [rowsOf]
  | succ a ih =>
    rw [show a + 1 + b = (a + b) + 1 by omega]
    simp only [rowsOf, ih, List.drop_drop, List.cons_append]
    congr 3
    rw [Nat.mul_succ]; congr 1; omega

theorem rowsOf_take (k m q : Nat) (l : List α) (h : k * m ≤ q) :
    rowsOf k m (l.take q) = rowsOf k m l := by
  induction m generalizing l q with
  | zero => rfl
  | succ m ih =>
    have hq : k + k * m ≤ q := by rw [Nat.mul_succ] at h; omega
    simp only [rowsOf, List.take_take, List.drop_take]
    rw [ih (q - k) (l.drop k) (by omega), Nat.min_eq_left (by omega)]

theorem rowsOf_append (k m : Nat) (l r : List α) (h : k * m ≤ l.length) :
    rowsOf k m (l ++ r) = rowsOf k m l := by
  rw [← rowsOf_take k m l.length (l ++ r) h, List.take_left']
  rfl

theorem getElem?_rowsOf (k m i : Nat) (l : List α) (h : i < m) :
    (rowsOf k m l)[i]? = some ((l.drop (k * i)).take k) := by
  induction m generalizing l i with
  | zero => omega
  | succ m ih =>
    cases i with
    | zero => simp [rowsOf]
    | succ i =>
      simp only [rowsOf, List.getElem?_cons_succ]
      rw [ih i (l.drop k) (by omega), List.drop_drop]
      congr 3
      rw [Nat.mul_succ]; omega

/-- cutting a concatenation of equally long pieces gives the pieces back -/
theorem rowsOf_flatten (k : Nat) (ls : List (List α)) (h : ∀ l ∈ ls, l.length = k) (r : List α) :
    rowsOf k ls.length (ls.flatten ++ r) = ls := by
  induction ls with
  | nil => rfl
  | cons a ls ih =>
    have ha : a.length = k := h a (List.mem_cons_self ..)
    simp only [List.length_cons, rowsOf, List.flatten_cons, List.append_assoc]
    rw [← ha, List.take_left' rfl, List.drop_left' rfl, ha,
      ih (fun l hl => h l (List.mem_cons_of_mem _ hl))]

theorem flatten_length_const (k : Nat) (ls : List (List α)) (h : ∀ l ∈ ls, l.length = k) :
    ls.flatten.length = k * ls.length := by
  induction ls with
  | nil => simp
  | cons a ls ih =>
    simp [ih (fun l hl => h l (List.mem_cons_of_mem _ hl)), h a (List.mem_cons_self ..),
      Nat.mul_succ]
    omega

theorem mapM_packInt_flatten (k : Nat) (hk : 0 < k) (l : List Int) (bs : List Bytes)
    (h : l.mapM (packInt k) = some bs) :
    (∀ b ∈ bs, b.length = k) ∧ bs.map (unpackInt k) = l := by
  induction l generalizing bs with
  | nil => simp at h; subst h; simp
  | cons a l ih =>
    simp only [List.mapM_cons, Option.bind_eq_bind, Option.pure_def, Option.bind_eq_some_iff] at h
    obtain ⟨b, hb, bs', hbs, h⟩ := h
    injection h with h
    subst h
    obtain ⟨h1, h2⟩ := ih bs' hbs
    obtain ⟨h3, h4⟩ := unpackInt_packInt k hk a b hb
    exact ⟨by simpa [h4] using h1, by simp [h3, h2]⟩

theorem mapM_packInt_of (k : Nat) (l : List Int)
    (h : ∀ x ∈ l, -(2 ^ (8 * k - 1) : Int) ≤ x ∧ x < 2 ^ (8 * k - 1)) :
    ∃ bs, l.mapM (packInt k) = some bs := by
  induction l with
  | nil => exact ⟨[], rfl⟩
  | cons a l ih =>
    obtain ⟨bs, hbs⟩ := ih (fun c hc => h c (List.mem_cons_of_mem _ hc))
    refine ⟨leBytes k (a % 2 ^ (8 * k)).toNat :: bs, ?_⟩
    have := h a (List.mem_cons_self ..)
    simp [List.mapM_cons, hbs, packInt, this]

end Verif.Py

namespace Verif.FastBin
open Verif.Py

theorem fread_ok (w : Nat) (dec : Bytes → α) (n : Nat) (bs : Bytes) (h : w * n ≤ bs.length) :
    fread w dec (n : Int) bs = .ok ((rowsOf w n bs).map dec, bs.drop (w * n)) := by
  unfold fread
  rw [if_neg (by omega), if_pos (by simp [h]), Int.toNat_natCast, rowsOf_take _ _ _ _ (Nat.le_refl _)]

theorem fread_short (w : Nat) (dec : Bytes → α) (n : Nat) (bs : Bytes) (h : bs.length < w * n) :
    fread w dec (n : Int) bs = .error .structError := by
  unfold fread
  rw [if_neg (by omega), if_neg (by simp; omega)]

theorem fread1_append (w : Nat) (dec : Bytes → α) (a rest : Bytes) (h : a.length = w) :
    fread1 w dec (a ++ rest) = .ok (dec a, rest) := by
  subst h
  simp [fread1]

theorem fread_append (w : Nat) (dec : Bytes → α) (n : Nat) (l : List Bytes) (rest : Bytes)
    (hl : l.length = n) (h : ∀ b ∈ l, b.length = w) :
    fread w dec (n : Int) (l.flatten ++ rest) = .ok (l.map dec, rest) := by
  have e : l.flatten.length = w * n := by rw [← hl]; exact flatten_length_const w l h
  rw [fread_ok _ _ _ _ (by simp [e]), ← hl, rowsOf_flatten w l h, hl, ← e, List.drop_left' rfl]

theorem Reader.bind_eq (p : Reader α) (f : α → Reader β) (bs : Bytes) :
    (p >>= f) bs = match p bs with | .ok (a, rest) => f a rest | .error e => .error e := rfl

theorem Reader.bind_ok {p : Reader α} {f : α → Reader β} {bs rest : Bytes} {a : α}
    (h : p bs = .ok (a, rest)) : (p >>= f) bs = f a rest := by
  rw [Reader.bind_eq, h]

theorem Reader.pure_ok (a : α) (bs : Bytes) : (pure a : Reader α) bs = .ok (a, bs) := rfl

/-- invariant of the buffered loop: rows `0..nLines-1` are final, the others are
still zero -/
theorem bufferLoop_spec (w : Nat) (dec : Bytes → α) (zero : α) (nT nCols nOff b : Nat)
    (hc : 0 < nCols) (hb : 0 < b) (fuel m : Nat) (hm : m ≤ nT) (done : List (List α))
    (hd : done.length = m) (bs : Bytes) (hfuel : (nT - m) * nCols < fuel) :
    bufferLoop w dec (nT * nCols) nCols nOff (nCols * b) fuel (m * nCols) m
      (done ++ List.replicate (nT - m) (List.replicate (nCols + nOff) zero)) bs
    = if bs.length < w * ((nT - m) * nCols) then .error .shortRead
      else .ok (done ++ (rowsOf nCols (nT - m) ((rowsOf w ((nT - m) * nCols) bs).map dec)).map
          (fun r => List.replicate nOff zero ++ r), bs.drop (w * ((nT - m) * nCols))) := by
  induction fuel generalizing m done bs with
  | zero => omega
  | succ fuel ih =>
    unfold bufferLoop
    by_cases hlt : m < nT
    · have h1 : m * nCols < nT * nCols := Nat.mul_lt_mul_of_pos_right hlt hc
      rw [if_pos h1]
      have hk : min (nT * nCols - m * nCols) (nCols * b) = (min (nT - m) b) * nCols := by
        rw [← Nat.sub_mul, Nat.mul_comm nCols b, Nat.mul_min_mul_right]
      simp only [hk]
      generalize hK : min (nT - m) b = k
      have hk0 : 0 < k := by omega
      have hkn : k ≤ nT - m := by omega
      rw [Nat.mul_div_cancel _ hc]
      have hle : k * nCols ≤ (nT - m) * nCols := Nat.mul_le_mul_right _ hkn
      have hsplit : (nT - m) * nCols = k * nCols + (nT - (m + k)) * nCols := by
        rw [← Nat.add_mul]; congr 1; omega
      by_cases hs : bs.length < w * (k * nCols)
      · have : bs.length < w * ((nT - m) * nCols) :=
          Nat.lt_of_lt_of_le hs (Nat.mul_le_mul_left _ hle)
        rw [fread_short _ _ _ _ hs, if_pos this]
      · rw [fread_ok _ _ _ _ (by omega)]
        have hr : reshape nCols (List.map dec (rowsOf w (k * nCols) bs))
            = some (rowsOf nCols k (List.map dec (rowsOf w (k * nCols) bs))) := by
          unfold reshape
          rw [List.length_map, length_rowsOf, if_pos (Nat.mul_mod_left ..), Nat.mul_div_cancel _ hc]
        have ha : assignRows nOff m k
            (done ++ List.replicate (nT - m) (List.replicate (nCols + nOff) zero))
            (rowsOf nCols k (List.map dec (rowsOf w (k * nCols) bs)))
            = some ((done ++ (rowsOf nCols k (List.map dec (rowsOf w (k * nCols) bs))).map
                (fun r => List.replicate nOff zero ++ r))
              ++ List.replicate (nT - (m + k)) (List.replicate (nCols + nOff) zero)) := by
          unfold assignRows
          subst hd
          have hz : ∀ (l : List (List α)),
              List.zipWith (fun old new => List.take nOff old ++ new)
              (List.replicate l.length (List.replicate (nCols + nOff) zero)) l
              = l.map (fun r => List.replicate nOff zero ++ r) := by
            intro l
            induction l with
            | nil => rfl
            | cons x l ihl =>
              simp only [List.length_cons, List.replicate_succ, List.zipWith_cons_cons, ihl,
                List.map_cons]
              simp
          have hl : (rowsOf nCols k (List.map dec (rowsOf w (k * nCols) bs))).length = k :=
            length_rowsOf ..
          rw [List.drop_left' rfl, List.take_left' rfl, List.take_replicate, Nat.min_eq_left hkn,
            if_pos (by simp [length_rowsOf])]
          have h3 := hz (rowsOf nCols k (List.map dec (rowsOf w (k * nCols) bs)))
          rw [hl] at h3
          rw [h3, ← List.drop_drop, List.drop_left' rfl, List.drop_replicate]
          rw [Nat.sub_sub]
        simp only [hr, ha]
        rw [← Nat.add_mul]
        have hpos : 0 < k * nCols := Nat.mul_pos hk0 hc
        rw [ih (m + k) (by omega) _ (by simp [hd, length_rowsOf]) _ (by omega)]
        have hw : w * ((nT - m) * nCols) = w * (k * nCols) + w * ((nT - (m + k)) * nCols) := by
          rw [hsplit, Nat.mul_add]
        rw [List.length_drop, List.drop_drop, ← hw]
        by_cases hs2 : bs.length < w * ((nT - m) * nCols)
        · rw [if_pos hs2, if_pos (by omega)]
        · rw [if_neg hs2, if_neg (by omega)]
          congr 2
          rw [hsplit, rowsOf_add w (k * nCols), List.map_append]
          have hn : nT - m = k + (nT - (m + k)) := by omega
          have hlen : (List.map dec (rowsOf w (k * nCols) bs)).length = nCols * k := by
            rw [List.length_map, length_rowsOf, Nat.mul_comm]
          rw [hn, rowsOf_add nCols k, rowsOf_append _ _ _ _ (by omega), List.map_append,
            List.append_assoc, ← hlen, List.drop_left' rfl]
    · have : m = nT := by omega
      subst this
      rw [if_neg (by omega)]
      simp [rowsOf]

theorem runSteps_ok (acc : Bytes) (bss : List Bytes) :
    runSteps acc (bss.map .ok) = (acc ++ bss.flatten, .ok ()) := by
  induction bss generalizing acc with
  | nil => simp [runSteps]
  | cons b bss ih => simp [runSteps, ih]

theorem rstripBy_spaces (p : Char → Bool) (hp : p ' ' = true) (s : Str) (k : Nat) :
    rstripBy p (s ++ List.replicate k ' ') = rstripBy p s := by
  unfold rstripBy
  rw [List.reverse_append, List.reverse_replicate]
  congr 1
  induction k with
  | zero => simp
  | succ k ih => rw [List.replicate_succ, List.cons_append, List.dropWhile_cons_of_pos hp, ih]

theorem strip_spaces (s : Str) (k : Nat) : strip (s ++ List.replicate k ' ') = strip s := by
  unfold strip stripBy lstripBy
  rw [List.dropWhile_append]
  split
  · rename_i h
    have h' : List.dropWhile isWs s = [] := by simpa using h
    have e : ∀ k, List.dropWhile isWs (List.replicate k ' ') = [] := by
      intro k
      induction k with
      | zero => rfl
      | succ k ih => rw [List.replicate_succ, List.dropWhile_cons_of_pos isWs_space, ih]
    rw [e, h']
  · exact rstripBy_spaces isWs isWs_space _ _

theorem packName_ok (s : Str) (hl : s.length ≤ 10) (hc : ∀ c ∈ s, c.toNat < 256) :
    ∃ bs, packName s = .ok bs ∧ bs.length = 10 ∧
      strip (bs.map unpackChar) = strip s := by
  have h : ∀ c ∈ s ++ List.replicate (10 - s.length) ' ', c.toNat < 256 := by
    intro c hc'
    rcases List.mem_append.1 hc' with h | h
    · exact hc c h
    · rw [List.eq_of_mem_replicate h]; decide
  obtain ⟨bs, hbs⟩ := mapM_packChar_of _ h
  have hlen : bs.length = 10 := by
    rw [mapM_some_length hbs]; simp; omega
  refine ⟨bs, ?_, hlen, ?_⟩
  · unfold packName; rw [hbs]; simp [hlen]
  · rw [map_unpackChar_mapM hbs, strip_spaces]

theorem packName_error (s : Str) (hl : 10 < s.length) : packName s = .error .structError := by
  unfold packName
  split
  · rfl
  · rename_i bs h
    have := mapM_some_length h
    rw [if_neg]
    simp at this
    omega

theorem packNames_ok (l : List Str) (hl : ∀ s ∈ l, s.length ≤ 10 ∧ ∀ c ∈ s, c.toNat < 256) :
    ∃ bss : List Bytes, l.map packName = bss.map .ok ∧ bss.length = l.length ∧
      (∀ b ∈ bss, b.length = 10) ∧
      bss.map (fun b => strip (b.map unpackChar)) = l.map strip := by
  induction l with
  | nil => exact ⟨[], by simp⟩
  | cons s l ih =>
    obtain ⟨bss, h1, h2, h3, h4⟩ := ih (fun x hx => hl x (List.mem_cons_of_mem _ hx))
    obtain ⟨hs1, hs2⟩ := hl s (List.mem_cons_self ..)
    obtain ⟨b, g1, g2, g3⟩ := packName_ok s hs1 hs2
    exact ⟨b :: bss, by simp [h1, g1], by simp [h2], by simpa [g2] using h3, by simp [g3, h4]⟩

theorem flatten_map_singleton (bs : Bytes) :
    (bs.map (fun b => [b])).flatten = bs := by
  induction bs with
  | nil => rfl
  | cons b bs ih => simp [ih]

theorem fread_bytes (n : Nat) (bs rest : Bytes) (h : bs.length = n) :
    fread 1 (fun b => b.map unpackChar) (n : Int) (bs ++ rest)
      = .ok (bs.map (fun b => [unpackChar b]), rest) := by
  have := fread_append 1 (fun b : Bytes => b.map unpackChar) n (bs.map (fun b => [b])) rest
    (by simp [h]) (by simp)
  rw [flatten_map_singleton] at this
  rw [this]
  simp

theorem flatten_chars (bs : Bytes) :
    (bs.map (fun b => [unpackChar b])).flatten = bs.map unpackChar := by
  induction bs with
  | nil => rfl
  | cons b bs ih => simp [ih]

theorem readNames_ok (bss : List Bytes) (rest : Bytes) (h : ∀ b ∈ bss, b.length = 10) :
    readNames 10 bss.length (bss.flatten ++ rest)
      = .ok (bss.map (fun b => strip (b.map unpackChar)), rest) := by
  induction bss with
  | nil => rfl
  | cons b bss ih =>
    simp only [List.length_cons, readNames, List.flatten_cons, List.append_assoc]
    refine (Reader.bind_ok (fread_bytes 10 b _ (h b (List.mem_cons_self ..)))).trans ?_
    refine (Reader.bind_ok (ih (fun x hx => h x (List.mem_cons_of_mem _ hx)))).trans ?_
    rw [flatten_chars]
    rfl

theorem wrap16_range (z : Int) : -32768 ≤ wrap16 z ∧ wrap16 z < 32768 := by
  unfold wrap16; omega

theorem wrap16_id (z : Int) (h : -32768 ≤ z) (h2 : z < 32768) : wrap16 z = z := by
  unfold wrap16; omega

theorem freadTable_eq (w : Nat) (dec : Bytes → α) (zero : α) (nT nCols nOff : Nat) (bs : Bytes)
    (h0 : 0 < nCols) (h1 : nCols ≤ 163840) :
    freadTable w dec zero ((nT * nCols : Nat) : Int) nCols nOff bs
    = if bs.length < w * (nT * nCols) then .error .shortRead
      else .ok ((rowsOf nCols nT ((rowsOf w (nT * nCols) bs).map dec)).map
          (fun r => List.replicate nOff zero ++ r), bs.drop (w * (nT * nCols))) := by
  have hb : 0 < goodBufferSize / nCols := Nat.div_pos h1 h0
  unfold freadTable
  simp only
  rw [if_neg (by omega), if_neg (Nat.pos_iff_ne_zero.1 (Nat.mul_pos h0 hb)), if_neg (by omega),
    Int.toNat_natCast, Nat.mul_div_cancel _ h0]
  have := bufferLoop_spec w dec zero nT nCols nOff (goodBufferSize / nCols) h0 hb (nT * nCols + 1) 0
    (Nat.zero_le _) [] rfl bs (by simp)
  simpa using this

/-- packed integers of one row -/
def packedRow (S : FloatSys) (scl off r : List S.F) : List Int :=
  List.zipWith (fun (so : S.F × S.F) x => quantise S so.1 so.2 x) (scl.zip off) (r.drop 1)

theorem packData_eq (S : FloatSys) (t : Table S.F) (scl off : List S.F) :
    packData S t scl off = (t.rows.map (packedRow S scl off)).flatten := rfl

theorem packInts_ok (l : List Int) (h : ∀ x ∈ l, -32768 ≤ x ∧ x < 32768) :
    ∃ bss : List Bytes, packInts 2 l = .ok bss.flatten ∧ (∀ b ∈ bss, b.length = 2) ∧
      bss.map (unpackInt 2) = l := by
  obtain ⟨bss, hb⟩ := mapM_packInt_of 2 l (by simpa using h)
  obtain ⟨h1, h2⟩ := mapM_packInt_flatten 2 (by decide) l bss hb
  exact ⟨bss, by unfold packInts; rw [hb], h1, h2⟩

theorem packData_range (S : FloatSys) (t : Table S.F) (scl off : List S.F) :
    ∀ x ∈ packData S t scl off, -32768 ≤ x ∧ x < 32768 := by
  intro x hx
  rw [packData_eq, List.mem_flatten] at hx
  obtain ⟨l, hl, hx⟩ := hx
  obtain ⟨r, _, rfl⟩ := List.mem_map.1 hl
  unfold packedRow at hx
  rw [List.mem_iff_getElem?] at hx
  obtain ⟨i, hi⟩ := hx
  rw [List.getElem?_zipWith] at hi
  split at hi
  · injection hi with hi
    rw [← hi]
    exact wrap16_range _
  · exact nomatch hi

theorem packI_ok (k : Nat) (hk : 0 < k) (x : Int)
    (h : -(2 ^ (8 * k - 1) : Int) ≤ x ∧ x < 2 ^ (8 * k - 1)) :
    ∃ bs, packI k x = .ok bs ∧ bs.length = k ∧ unpackInt k bs = x := by
  have : packInt k x = some (leBytes k (x % 2 ^ (8 * k)).toNat) := by
    unfold packInt; rw [if_pos h]
  obtain ⟨h1, h2⟩ := unpackInt_packInt k hk x _ this
  exact ⟨_, by unfold packI; rw [this], h2, h1⟩

theorem packStr_ok (s : Str) (hc : ∀ c ∈ s, c.toNat < 256) :
    ∃ bs, packStr s = .ok bs ∧ bs.length = s.length ∧ bs.map unpackChar = s := by
  obtain ⟨bs, hbs⟩ := mapM_packChar_of _ hc
  exact ⟨bs, by unfold packStr; rw [hbs], mapM_some_length hbs, map_unpackChar_mapM hbs⟩

/-- The file produced from prepared values is read back completely. -/
theorem load_steps (S : FloatSys) (t : Table S.F) (names : List Str) (descr : Str)
    (p : Prepared S.F) (m : Nat) (hm : t.nCols = m + 1) (hm0 : 0 < m) (hm1 : m ≤ 163840)
    (hrect : ∀ r ∈ t.rows, r.length = t.nCols) (hnT : t.rows.length < 2 ^ 31)
    (hnames : ∀ s ∈ names, s.length ≤ 10 ∧ ∀ c ∈ s, c.toNat < 256)
    (hnl : names.length = t.nCols)
    (hunits : ∀ s ∈ p.units, s.length ≤ 10 ∧ ∀ c ∈ s, c.toNat < 256)
    (hul : p.units.length = t.nCols)
    (hd : descr.length < 2 ^ 31) (hdc : ∀ c ∈ descr, c.toNat < 256)
    (hscl : p.scl.length = m) (hoff : p.off.length = m)
    (l32 : ∀ x, (S.enc32 x).length = 4) (l64 : ∀ x, (S.enc64 x).length = 8) :
    ∃ bytes, runSteps [] (writeSteps S t names descr p) = (bytes, .ok ()) ∧
      load S bytes = .ok (
        { fileID := 2, description := strip descr, names := names.map strip,
          units := (p.units.map strip).map dropEnds,
          data := List.zipWith (fun i r => S.add (S.dec64 (S.enc64 p.t0))
              (S.mul (S.dec64 (S.enc64 p.dt)) (S.ofInt ((i : Nat) : Int))) ::
              scaleRow S (p.scl.map (fun x => S.dec32 (S.enc32 x)))
                (p.off.map (fun x => S.dec32 (S.enc32 x)))
                ((packedRow S p.scl p.off r).map S.ofInt))
            (List.range t.rows.length) t.rows }, []) := by
  have hmi : ((t.nCols : Int) - 1) = (m : Int) := by rw [hm]; omega
  obtain ⟨b1, e1, n1, u1⟩ := packI_ok 2 (by decide) 2 (by decide)
  obtain ⟨b2, e2, n2, u2⟩ := packI_ok 4 (by decide) (m : Int) (by
    refine ⟨?_, ?_⟩ <;> simp <;> omega)
  obtain ⟨b3, e3, n3, u3⟩ := packI_ok 4 (by decide) (t.rows.length : Int) (by
    refine ⟨?_, ?_⟩ <;> simp <;> omega)
  obtain ⟨b8, e8, n8, u8⟩ := packI_ok 4 (by decide) (descr.length : Int) (by
    refine ⟨?_, ?_⟩ <;> simp <;> omega)
  obtain ⟨b9, e9, n9, u9⟩ := packStr_ok descr hdc
  obtain ⟨bn, en, ln, wn, sn⟩ := packNames_ok names hnames
  obtain ⟨bu, eu, lu, wu, su⟩ := packNames_ok p.units hunits
  obtain ⟨bd, ed, wd, sd⟩ := packInts_ok _ (packData_range S t p.scl p.off)
  have hsteps : writeSteps S t names descr p
      = ([b1, b2, b3, S.enc64 p.t0, S.enc64 p.dt, p.scl.flatMap S.enc32, p.off.flatMap S.enc32,
          b8, b9] ++ bn ++ bu ++ [bd.flatten]).map .ok := by
    unfold writeSteps
    rw [hmi, e1, e2, e3, e8, e9, en, eu, ed]
    simp
  refine ⟨_, by rw [hsteps, runSteps_ok], ?_⟩
  have hbytes : ([] : Bytes) ++ ([b1, b2, b3, S.enc64 p.t0, S.enc64 p.dt, p.scl.flatMap S.enc32,
      p.off.flatMap S.enc32, b8, b9] ++ bn ++ bu ++ [bd.flatten]).flatten
      = b1 ++ (b2 ++ (b3 ++ (S.enc64 p.t0 ++ (S.enc64 p.dt ++ (p.scl.flatMap S.enc32 ++
        (p.off.flatMap S.enc32 ++ (b8 ++ (b9 ++ (bn.flatten ++ (bu.flatten ++ bd.flatten))))))))))
      := by
    simp [List.append_assoc]
  rw [hbytes]
  have hfl : ∀ (l : List S.F) (rest : Bytes), l.length = m →
      fread 4 S.dec32 (m : Int) (l.flatMap S.enc32 ++ rest)
      = .ok (l.map (fun x => S.dec32 (S.enc32 x)), rest) := by
    intro l rest hl
    have := fread_append 4 S.dec32 m (l.map S.enc32) rest (by simp [hl]) (by
      intro b hb; obtain ⟨x, _, rfl⟩ := List.mem_map.1 hb; exact l32 x)
    rw [List.flatMap_def, this, List.map_map]
    rfl
  have hrow : ∀ r ∈ t.rows, (packedRow S p.scl p.off r).length = m := by
    intro r hr
    have := hrect r hr
    simp [packedRow, hscl, hoff, this, hm]
  have hdlen : (packData S t p.scl p.off).length = t.rows.length * m := by
    rw [packData_eq, flatten_length_const m]
    · simp [Nat.mul_comm]
    · intro l hl; obtain ⟨r, hr, rfl⟩ := List.mem_map.1 hl; exact hrow r hr
  have hbd : bd.length = t.rows.length * m := by
    rw [← hdlen, ← sd, List.length_map]
  have htab : freadTable 2 (fun bs => S.ofInt (unpackInt 2 bs)) (S.ofInt 0)
      ((t.rows.length : Int) * (m : Int)) m 1 bd.flatten
      = .ok (t.rows.map (fun r => S.ofInt 0 :: (packedRow S p.scl p.off r).map S.ofInt), []) := by
    have hfl2 : bd.flatten.length = 2 * (t.rows.length * m) := by
      rw [flatten_length_const 2 bd wd, hbd]
    have := freadTable_eq 2 (fun bs => S.ofInt (unpackInt 2 bs)) (S.ofInt 0) t.rows.length m 1
      bd.flatten hm0 hm1
    rw [Int.natCast_mul] at this
    rw [this, if_neg (by omega)]
    have h1 := rowsOf_flatten 2 bd wd []
    rw [List.append_nil, hbd] at h1
    have h2 : List.map (fun bs => S.ofInt (unpackInt 2 bs)) bd
        = (t.rows.map (fun r => (packedRow S p.scl p.off r).map S.ofInt)).flatten := by
      have : List.map (fun bs => S.ofInt (unpackInt 2 bs)) bd = (bd.map (unpackInt 2)).map S.ofInt := by
        rw [List.map_map]; rfl
      rw [this, sd, packData_eq, List.map_flatten, List.map_map]
      rfl
    have h3 := rowsOf_flatten m (t.rows.map (fun r => (packedRow S p.scl p.off r).map S.ofInt)) (by
      intro l hl; obtain ⟨r, hr, rfl⟩ := List.mem_map.1 hl; simp [hrow r hr]) []
    rw [List.append_nil, List.length_map] at h3
    rw [h1, h2, h3, List.map_map, ← hfl2, List.drop_length]
    rfl
  unfold load
  refine (Reader.bind_ok (fread1_append 2 _ b1 _ n1)).trans ?_
  rw [u1, if_neg (by decide)]
  refine (Reader.bind_ok (Reader.pure_ok 10 _)).trans ?_
  refine (Reader.bind_ok (fread1_append 4 _ b2 _ n2)).trans ?_
  refine (Reader.bind_ok (fread1_append 4 _ b3 _ n3)).trans ?_
  refine (Reader.bind_ok (fread1_append 8 _ _ _ (l64 _))).trans ?_
  refine (Reader.bind_ok (fread1_append 8 _ _ _ (l64 _))).trans ?_
  rw [u2, u3]
  refine (Reader.bind_ok (hfl _ _ hscl)).trans ?_
  refine (Reader.bind_ok (hfl _ _ hoff)).trans ?_
  refine (Reader.bind_ok (fread1_append 4 _ b8 _ n8)).trans ?_
  rw [u8]
  refine (Reader.bind_ok (fread_bytes _ b9 _ n9)).trans ?_
  have hk : ((m : Int) + 1).toNat = bn.length := by rw [ln, hnl, hm]; omega
  have hk2 : ((m : Int) + 1).toNat = bu.length := by rw [lu, hul, hm]; omega
  refine (Reader.bind_ok (by rw [hk]; exact readNames_ok bn _ wn)).trans ?_
  refine (Reader.bind_ok (by rw [hk2]; exact readNames_ok bu _ wu)).trans ?_
  refine (Reader.bind_ok (Reader.pure_ok [] _)).trans ?_
  refine (Reader.bind_ok htab).trans ?_
  rw [sn, su, flatten_chars, u9]
  refine congrArg (fun d => Except.ok (Loaded.mk 2 (strip descr) (names.map strip)
    ((p.units.map strip).map dropEnds) d, ([] : Bytes))) ?_
  unfold finish
  rw [if_neg (by decide), Int.toNat_natCast, List.zipWith_map]
  rfl

end Verif.FastBin
