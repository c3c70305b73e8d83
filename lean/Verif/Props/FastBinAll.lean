import Verif.Lemmas.FastBinAll
import Verif.Py.Dec
/-!
# C80 — the four layouts of OpenFAST binary files
-/
namespace Verif.FastBin
open Verif.Py

/-- the content of a binary file, item by item, in the bytes of the file -/
structure Content where
  /-- characters of a name in the file -/
  width : Nat
  timeA : Bytes
  timeB : Bytes
  scl : List Bytes
  off : List Bytes
  desc : Bytes
  names : List Bytes
  units : List Bytes
  times : List Bytes
  rows : List (List Bytes)

/-- the sizes agree; `w` is the number of bytes of one value of the table -/
structure Content.Ok (f : Content) (n w : Nat) : Prop where
  n0 : 0 < n
  n1 : n ≤ 163840
  nt : f.rows.length < 2 ^ 31
  width : f.width < 2 ^ 15
  timeA : f.timeA.length = 8
  timeB : f.timeB.length = 8
  scl : f.scl.length = n ∧ ∀ b ∈ f.scl, b.length = 4
  off : f.off.length = n ∧ ∀ b ∈ f.off, b.length = 4
  desc : f.desc.length < 2 ^ 31
  names : f.names.length = n + 1 ∧ ∀ b ∈ f.names, b.length = f.width
  units : f.units.length = n + 1 ∧ ∀ b ∈ f.units, b.length = f.width
  times : f.times.length = f.rows.length ∧ ∀ b ∈ f.times, b.length = 4
  rows : ∀ r ∈ f.rows, r.length = n ∧ ∀ b ∈ r, b.length = w

/-- format 1: packed times, packed values -/
def Content.file1 (f : Content) (n : Nat) : Bytes :=
  leBytes 2 1 ++ (leBytes 4 n ++ (leBytes 4 f.rows.length ++ (f.timeA ++ (f.timeB ++ (f.scl.flatten ++
    (f.off.flatten ++ (leBytes 4 f.desc.length ++ (f.desc ++ (f.names.flatten ++ (f.units.flatten ++
      (f.times.flatten ++ f.rows.flatten.flatten)))))))))))

/-- format 2: first time and increment, packed values -/
def Content.file2 (f : Content) (n : Nat) : Bytes :=
  leBytes 2 2 ++ (leBytes 4 n ++ (leBytes 4 f.rows.length ++ (f.timeA ++ (f.timeB ++ (f.scl.flatten ++
    (f.off.flatten ++ (leBytes 4 f.desc.length ++ (f.desc ++ (f.names.flatten ++ (f.units.flatten ++
      f.rows.flatten.flatten))))))))))

/-- format 3: first time and increment, values of 8 bytes, neither slopes nor offsets -/
def Content.file3 (f : Content) (n : Nat) : Bytes :=
  leBytes 2 3 ++ (leBytes 4 n ++ (leBytes 4 f.rows.length ++ (f.timeA ++ (f.timeB ++
    (leBytes 4 f.desc.length ++ (f.desc ++ (f.names.flatten ++ (f.units.flatten ++
      f.rows.flatten.flatten))))))))

/-- format 4: as 2, with the number of characters of the names -/
def Content.file4 (f : Content) (n : Nat) : Bytes :=
  leBytes 2 4 ++ (leBytes 2 f.width ++ (leBytes 4 n ++ (leBytes 4 f.rows.length ++ (f.timeA ++ (f.timeB ++
    (f.scl.flatten ++ (f.off.flatten ++ (leBytes 4 f.desc.length ++ (f.desc ++ (f.names.flatten ++
      (f.units.flatten ++ f.rows.flatten.flatten)))))))))))

/-- one physical value: `(x - off)/scl`, or 0 when both are NaN -/
def physical (S : FloatSys) (scl off x : S.F) : S.F :=
  if S.isNaN scl ∧ S.isNaN off then S.ofInt 0 else S.div (S.sub x off) scl

/-- what a user is entitled to: description and names without the blanks around, units without blanks
and brackets, at row `i` the time `time i` and the values `val i j` -/
structure Read (S : FloatSys) (f : Content) (n : Nat) (id : Int) (time : Nat → S.F) (val : Nat → Nat → S.F)
    (r : Loaded S.F) : Prop where
  fileID : r.fileID = id
  description : r.description = strip (f.desc.map unpackChar)
  names : r.names = f.names.map (fun b => strip (b.map unpackChar))
  units : r.units = f.units.map (fun b => ((strip (b.map unpackChar)).drop 1).dropLast)
  nRows : r.data.length = f.rows.length
  data : ∀ i, i < f.rows.length → ∃ row, r.data[i]? = some row ∧ row.length = n + 1 ∧
    row[0]? = some (time i) ∧ ∀ j, j < n → row[j + 1]? = some (val i j)

/-- the bytes of a value of the table, of a slope, of an offset, of a packed time -/
def Content.at_ (f : Content) (i j : Nat) : Bytes := (f.rows.getD i []).getD j []
def Content.sclAt (f : Content) (j : Nat) : Bytes := f.scl.getD j []
def Content.offAt (f : Content) (j : Nat) : Bytes := f.off.getD j []
def Content.timeAt (f : Content) (i : Nat) : Bytes := f.times.getD i []

/-! ### shape of the result -/

theorem scaleRow_get (S : FloatSys) (scl off row : List S.F) (n : Nat) (h1 : scl.length = n) (h2 : off.length = n)
    (h3 : row.length = n) : (scaleRow S scl off row).length = n ∧
    ∀ j, j < n → (scaleRow S scl off row)[j]? =
      some (physical S (scl.getD j (S.ofInt 0)) (off.getD j (S.ofInt 0)) (row.getD j (S.ofInt 0))) := by
  refine ⟨by simp [scaleRow, h1, h2, h3], fun j hj => ?_⟩
  have e1 : scl[j]? = some scl[j] := List.getElem?_eq_getElem (by omega)
  have e2 : off[j]? = some off[j] := List.getElem?_eq_getElem (by omega)
  have e3 : row[j]? = some row[j] := List.getElem?_eq_getElem (by omega)
  rw [scaleRow, List.getElem?_zipWith, List.zip, List.getElem?_zipWith, e1, e2, e3]
  simp only [List.getD_eq_getElem?_getD, e1, e2, e3, Option.getD_some, physical, Bool.and_eq_true]

theorem read_of (S : FloatSys) (f : Content) (n : Nat) (id : Int) (time : List S.F) (scl off : List S.F)
    (dec : Bytes → S.F) (zero : S.F) (w : Nat) (ht : time.length = f.rows.length) (h1 : scl.length = n)
    (h2 : off.length = n) (h3 : ∀ r ∈ f.rows, r.length = n ∧ ∀ b ∈ r, b.length = w) :
    Read S f n id (fun i => time.getD i (S.ofInt 0))
      (fun i j => physical S (scl.getD j (S.ofInt 0)) (off.getD j (S.ofInt 0)) (dec (f.at_ i j)))
      { fileID := id, description := strip ((f.desc.map (fun b => [unpackChar b])).flatten),
        names := f.names.map (fun b => strip (b.map unpackChar)),
        units := (f.units.map (fun b => strip (b.map unpackChar))).map dropEnds,
        data := finish S time scl off (f.rows.map (fun r => zero :: r.map dec)) } := by
  refine ⟨rfl, by rw [flatten_chars], rfl, by rw [List.map_map]; rfl, by simp [finish, ht], fun i hi => ?_⟩
  have et : time[i]? = some time[i] := List.getElem?_eq_getElem (by omega)
  have er : f.rows[i]? = some f.rows[i] := List.getElem?_eq_getElem hi
  have hr := (h3 f.rows[i] (List.getElem_mem ..)).1
  obtain ⟨hl, hg⟩ := scaleRow_get S scl off (f.rows[i].map dec) n h1 h2 (by rw [List.length_map, hr])
  refine ⟨time[i] :: scaleRow S scl off (f.rows[i].map dec), ?_, by rw [List.length_cons, hl], ?_, fun j hj => ?_⟩
  · rw [finish, List.getElem?_zipWith, et, List.getElem?_map, er]
    rfl
  · simp only [List.getElem?_cons_zero, List.getD_eq_getElem?_getD, et, Option.getD_some]
  · rw [List.getElem?_cons_succ, hg j hj]
    have ej : (f.rows[i])[j]? = some (f.rows[i])[j] := List.getElem?_eq_getElem (by omega)
    simp only [Content.at_, List.getD_eq_getElem?_getD, List.getElem?_map, er, ej, Option.getD_some,
      Option.map_some]

theorem getD_map_dec (dec : Bytes → α) (l : List Bytes) (z : α) (j : Nat) (h : j < l.length) :
    (l.map dec).getD j z = dec (l.getD j []) := by
  simp [List.getD_eq_getElem?_getD, List.getElem?_eq_getElem h]

theorem Read.congr {S : FloatSys} {f : Content} {n : Nat} {id : Int} {time time' : Nat → S.F}
    {val val' : Nat → Nat → S.F} {r : Loaded S.F} (h : Read S f n id time val r)
    (ht : ∀ i, i < f.rows.length → time i = time' i)
    (hv : ∀ i j, i < f.rows.length → j < n → val i j = val' i j) : Read S f n id time' val' r := by
  refine ⟨h.fileID, h.description, h.names, h.units, h.nRows, fun i hi => ?_⟩
  obtain ⟨row, e, hl, h0, hj⟩ := h.data i hi
  exact ⟨row, e, hl, by rw [← ht i hi]; exact h0, fun j hjn => by rw [← hv i j hi hjn]; exact hj j hjn⟩

/-! ### C80 -/

/-- the result for a file of bytes `u`: it is read up to its end, and every shorter beginning is refused -/
def ReadsAs (S : FloatSys) (u : Bytes) (P : Loaded S.F → Prop) : Prop :=
  (∃ r, P r ∧ ∀ rest, load S (u ++ rest) = .ok (r, rest)) ∧
  ∀ q, q <+: u → q ≠ u → ∃ e, load S q = .error e

theorem readsAs_of {S : FloatSys} {u : Bytes} {P : Loaded S.F → Prop} {r : Loaded S.F}
    (h : Consumes (load S) u r) (hr : P r) : ReadsAs S u P := ⟨⟨r, hr, h.1⟩, h.2⟩

/-- **C80** (format 1) — a file with packed times is read item by item -/
theorem C80_1 (S : FloatSys) (f : Content) (n : Nat) (h : f.Ok n 2) (hw : f.width = 10) :
    ReadsAs S (f.file1 n) (Read S f n 1
      (fun i => S.div (S.sub (S.ofInt (unpackInt 4 (f.timeAt i))) (S.dec64 f.timeB)) (S.dec64 f.timeA))
      (fun i j => physical S (S.dec32 (f.sclAt j)) (S.dec32 (f.offAt j)) (S.ofInt (unpackInt 2 (f.at_ i j))))) := by
  obtain ⟨n0, n1, hnt, hwd, ha, hb, hs, ho, hd, hn, hu, ht, hr⟩ := h
  obtain ⟨l1, u1⟩ := le_int 2 1 (by decide) (by decide)
  obtain ⟨l2, u2⟩ := le_int 4 n (by decide) (by omega)
  obtain ⟨l3, u3⟩ := le_int 4 f.rows.length (by decide) (by omega)
  obtain ⟨l4, u4⟩ := le_int 4 f.desc.length (by decide) (by omega)
  refine readsAs_of (r := {
    fileID := 1, description := strip ((f.desc.map (fun b => [unpackChar b])).flatten),
    names := f.names.map (fun b => strip (b.map unpackChar)),
    units := (f.units.map (fun b => strip (b.map unpackChar))).map dropEnds,
    data := finish S ((f.times.map (unpackInt 4)).map (fun p => S.div (S.sub (S.ofInt p) (S.dec64 f.timeB)) (S.dec64 f.timeA)))
      (f.scl.map S.dec32) (f.off.map S.dec32)
      (f.rows.map (fun r => S.ofInt 0 :: r.map (fun bs => S.ofInt (unpackInt 2 bs)))) }) ?_ ?_
  · unfold load Content.file1
    refine Consumes.bind (Consumes.fread1 2 _ _ l1) ?_
    rw [u1, if_neg (by decide)]
    refine Consumes.bind0 (Consumes.pure (10 : Int)) ?_
    refine Consumes.bind (Consumes.fread1 4 _ _ l2) ?_
    refine Consumes.bind (Consumes.fread1 4 _ _ l3) ?_
    refine Consumes.bind (Consumes.fread1 8 _ _ ha) ?_
    refine Consumes.bind (Consumes.fread1 8 _ _ hb) ?_
    rw [u2, u3]
    refine Consumes.bind (Consumes.fread 4 S.dec32 n _ hs.1 hs.2) ?_
    refine Consumes.bind (Consumes.fread 4 S.dec32 n _ ho.1 ho.2) ?_
    refine Consumes.bind (Consumes.fread1 4 _ _ l4) ?_
    rw [u4]
    refine Consumes.bind (Consumes.chars _ f.desc rfl) ?_
    have hk : ((n : Int) + 1).toNat = f.names.length := by rw [hn.1]; omega
    have hk2 : ((n : Int) + 1).toNat = f.units.length := by rw [hu.1]; omega
    have hnm := Consumes.names f.width f.names hn.2
    have hun := Consumes.names f.width f.units hu.2
    rw [hw, ← hk] at hnm
    rw [hw, ← hk2] at hun
    refine Consumes.bind hnm ?_
    refine Consumes.bind hun ?_
    refine Consumes.bind (Consumes.fread 4 (unpackInt 4) f.rows.length _ ht.1 ht.2) ?_
    refine Consumes.cast (u := f.rows.flatten.flatten ++ []) ?_ (List.append_nil _) rfl
    refine Consumes.bind (Consumes.table 2 (fun bs => S.ofInt (unpackInt 2 bs)) (S.ofInt 0) n n0 n1 f.rows hr) ?_
    exact Consumes.pure _
  · refine (read_of S f n 1 _ _ _ _ (S.ofInt 0) 2 (by simp [ht.1]) (by simp [hs.1]) (by simp [ho.1]) hr).congr
      (fun i hi => ?_) (fun i j hi hj => ?_)
    · rw [List.map_map, getD_map_dec _ _ _ _ (by rw [ht.1]; exact hi)]
      rfl
    · rw [getD_map_dec _ _ _ _ (by rw [hs.1]; exact hj), getD_map_dec _ _ _ _ (by rw [ho.1]; exact hj)]
      rfl

/-- **C80** (format 2) -/
theorem C80_2 (S : FloatSys) (f : Content) (n : Nat) (h : f.Ok n 2) (hw : f.width = 10) :
    ReadsAs S (f.file2 n) (Read S f n 2
      (fun i => S.add (S.dec64 f.timeA) (S.mul (S.dec64 f.timeB) (S.ofInt (i : Int))))
      (fun i j => physical S (S.dec32 (f.sclAt j)) (S.dec32 (f.offAt j)) (S.ofInt (unpackInt 2 (f.at_ i j))))) := by
  obtain ⟨n0, n1, hnt, hwd, ha, hb, hs, ho, hd, hn, hu, ht, hr⟩ := h
  obtain ⟨l1, u1⟩ := le_int 2 2 (by decide) (by decide)
  obtain ⟨l2, u2⟩ := le_int 4 n (by decide) (by omega)
  obtain ⟨l3, u3⟩ := le_int 4 f.rows.length (by decide) (by omega)
  obtain ⟨l4, u4⟩ := le_int 4 f.desc.length (by decide) (by omega)
  refine readsAs_of (r := {
    fileID := 2, description := strip ((f.desc.map (fun b => [unpackChar b])).flatten),
    names := f.names.map (fun b => strip (b.map unpackChar)),
    units := (f.units.map (fun b => strip (b.map unpackChar))).map dropEnds,
    data := finish S ((List.range f.rows.length).map (fun (i : Nat) => S.add (S.dec64 f.timeA) (S.mul (S.dec64 f.timeB) (S.ofInt (i : Int)))))
      (f.scl.map S.dec32) (f.off.map S.dec32)
      (f.rows.map (fun r => S.ofInt 0 :: r.map (fun bs => S.ofInt (unpackInt 2 bs)))) }) ?_ ?_
  · unfold load Content.file2
    refine Consumes.bind (Consumes.fread1 2 _ _ l1) ?_
    rw [u1, if_neg (by decide)]
    refine Consumes.bind0 (Consumes.pure (10 : Int)) ?_
    refine Consumes.bind (Consumes.fread1 4 _ _ l2) ?_
    refine Consumes.bind (Consumes.fread1 4 _ _ l3) ?_
    refine Consumes.bind (Consumes.fread1 8 _ _ ha) ?_
    refine Consumes.bind (Consumes.fread1 8 _ _ hb) ?_
    rw [u2, u3]
    refine Consumes.bind (Consumes.fread 4 S.dec32 n _ hs.1 hs.2) ?_
    refine Consumes.bind (Consumes.fread 4 S.dec32 n _ ho.1 ho.2) ?_
    refine Consumes.bind (Consumes.fread1 4 _ _ l4) ?_
    rw [u4]
    refine Consumes.bind (Consumes.chars _ f.desc rfl) ?_
    have hk : ((n : Int) + 1).toNat = f.names.length := by rw [hn.1]; omega
    have hk2 : ((n : Int) + 1).toNat = f.units.length := by rw [hu.1]; omega
    have hnm := Consumes.names f.width f.names hn.2
    have hun := Consumes.names f.width f.units hu.2
    rw [hw, ← hk] at hnm
    rw [hw, ← hk2] at hun
    refine Consumes.bind hnm ?_
    refine Consumes.bind hun ?_
    refine Consumes.bind0 (Consumes.pure []) ?_
    refine Consumes.cast (u := f.rows.flatten.flatten ++ []) ?_ (List.append_nil _) rfl
    refine Consumes.bind (Consumes.table 2 (fun bs => S.ofInt (unpackInt 2 bs)) (S.ofInt 0) n n0 n1 f.rows hr) ?_
    exact Consumes.pure _
  · refine (read_of S f n 2 _ _ _ _ (S.ofInt 0) 2 (by simp) (by simp [hs.1]) (by simp [ho.1]) hr).congr
      (fun i hi => ?_) (fun i j hi hj => ?_)
    · simp [List.getD_eq_getElem?_getD, hi]
    · rw [getD_map_dec _ _ _ _ (by rw [hs.1]; exact hj), getD_map_dec _ _ _ _ (by rw [ho.1]; exact hj)]
      rfl

/-- **C80** (format 3) — values of 8 bytes are not scaled -/
theorem C80_3 (S : FloatSys) (f : Content) (n : Nat) (h : f.Ok n 8) (hw : f.width = 10) :
    ReadsAs S (f.file3 n) (Read S f n 3
      (fun i => S.add (S.dec64 f.timeA) (S.mul (S.dec64 f.timeB) (S.ofInt (i : Int))))
      (fun i j => physical S (S.ofInt 1) (S.ofInt 0) (S.dec64 (f.at_ i j)))) := by
  obtain ⟨n0, n1, hnt, hwd, ha, hb, hs, ho, hd, hn, hu, ht, hr⟩ := h
  obtain ⟨l1, u1⟩ := le_int 2 3 (by decide) (by decide)
  obtain ⟨l2, u2⟩ := le_int 4 n (by decide) (by omega)
  obtain ⟨l3, u3⟩ := le_int 4 f.rows.length (by decide) (by omega)
  obtain ⟨l4, u4⟩ := le_int 4 f.desc.length (by decide) (by omega)
  refine readsAs_of (r := {
    fileID := 3, description := strip ((f.desc.map (fun b => [unpackChar b])).flatten),
    names := f.names.map (fun b => strip (b.map unpackChar)),
    units := (f.units.map (fun b => strip (b.map unpackChar))).map dropEnds,
    data := finish S ((List.range f.rows.length).map (fun (i : Nat) => S.add (S.dec64 f.timeA) (S.mul (S.dec64 f.timeB) (S.ofInt (i : Int)))))
      (List.replicate n (S.ofInt 1)) (List.replicate n (S.ofInt 0))
      (f.rows.map (fun r => S.ofInt 0 :: r.map S.dec64)) }) ?_ ?_
  · unfold load Content.file3
    refine Consumes.bind (Consumes.fread1 2 _ _ l1) ?_
    rw [u1, if_neg (by decide)]
    refine Consumes.bind0 (Consumes.pure (10 : Int)) ?_
    refine Consumes.bind (Consumes.fread1 4 _ _ l2) ?_
    refine Consumes.bind (Consumes.fread1 4 _ _ l3) ?_
    refine Consumes.bind (Consumes.fread1 8 _ _ ha) ?_
    refine Consumes.bind (Consumes.fread1 8 _ _ hb) ?_
    rw [u2, u3]
    have hscl : readScl S ((3 : Nat) : Int) (n : Int) = pure (List.replicate n (S.ofInt 1)) := by
      unfold readScl
      rw [if_pos (by decide), if_neg (by omega), Int.toNat_natCast]
    refine Consumes.bind0 (by rw [hscl]; exact Consumes.pure _) ?_
    have hoff : readOff S ((3 : Nat) : Int) (n : Int) = pure (List.replicate n (S.ofInt 0)) := by
      unfold readOff
      rw [if_pos (by decide), Int.toNat_natCast]
    refine Consumes.bind0 (by rw [hoff]; exact Consumes.pure _) ?_
    refine Consumes.bind (Consumes.fread1 4 _ _ l4) ?_
    rw [u4]
    refine Consumes.bind (Consumes.chars _ f.desc rfl) ?_
    have hk : ((n : Int) + 1).toNat = f.names.length := by rw [hn.1]; omega
    have hk2 : ((n : Int) + 1).toNat = f.units.length := by rw [hu.1]; omega
    have hnm := Consumes.names f.width f.names hn.2
    have hun := Consumes.names f.width f.units hu.2
    rw [hw, ← hk] at hnm
    rw [hw, ← hk2] at hun
    refine Consumes.bind hnm ?_
    refine Consumes.bind hun ?_
    refine Consumes.bind0 (Consumes.pure []) ?_
    refine Consumes.cast (u := f.rows.flatten.flatten ++ []) ?_ (List.append_nil _) rfl
    refine Consumes.bind (Consumes.table 8 S.dec64 (S.ofInt 0) n n0 n1 f.rows hr) ?_
    exact Consumes.pure _
  · refine (read_of S f n 3 _ _ _ _ (S.ofInt 0) 8 (by simp) (by simp) (by simp) hr).congr
      (fun i hi => ?_) (fun i j hi hj => ?_)
    · simp [List.getD_eq_getElem?_getD, hi]
    · simp [List.getD_eq_getElem?_getD, hj]

/-- **C80** (format 4) — names of any width -/
theorem C80_4 (S : FloatSys) (f : Content) (n : Nat) (h : f.Ok n 2) :
    ReadsAs S (f.file4 n) (Read S f n 4
      (fun i => S.add (S.dec64 f.timeA) (S.mul (S.dec64 f.timeB) (S.ofInt (i : Int))))
      (fun i j => physical S (S.dec32 (f.sclAt j)) (S.dec32 (f.offAt j)) (S.ofInt (unpackInt 2 (f.at_ i j))))) := by
  obtain ⟨n0, n1, hnt, hwd, ha, hb, hs, ho, hd, hn, hu, ht, hr⟩ := h
  obtain ⟨l1, u1⟩ := le_int 2 4 (by decide) (by decide)
  obtain ⟨l2, u2⟩ := le_int 4 n (by decide) (by omega)
  obtain ⟨l3, u3⟩ := le_int 4 f.rows.length (by decide) (by omega)
  obtain ⟨l4, u4⟩ := le_int 4 f.desc.length (by decide) (by omega)
  obtain ⟨l5, u5⟩ := le_int 2 f.width (by decide) (by omega)
  refine readsAs_of (r := {
    fileID := 4, description := strip ((f.desc.map (fun b => [unpackChar b])).flatten),
    names := f.names.map (fun b => strip (b.map unpackChar)),
    units := (f.units.map (fun b => strip (b.map unpackChar))).map dropEnds,
    data := finish S ((List.range f.rows.length).map (fun (i : Nat) => S.add (S.dec64 f.timeA) (S.mul (S.dec64 f.timeB) (S.ofInt (i : Int)))))
      (f.scl.map S.dec32) (f.off.map S.dec32)
      (f.rows.map (fun r => S.ofInt 0 :: r.map (fun bs => S.ofInt (unpackInt 2 bs)))) }) ?_ ?_
  · unfold load Content.file4
    refine Consumes.bind (Consumes.fread1 2 _ _ l1) ?_
    rw [u1, if_neg (by decide)]
    refine Consumes.bind (Consumes.fread1 2 _ _ l5) ?_
    refine Consumes.bind (Consumes.fread1 4 _ _ l2) ?_
    refine Consumes.bind (Consumes.fread1 4 _ _ l3) ?_
    refine Consumes.bind (Consumes.fread1 8 _ _ ha) ?_
    refine Consumes.bind (Consumes.fread1 8 _ _ hb) ?_
    rw [u2, u3, u5]
    refine Consumes.bind (Consumes.fread 4 S.dec32 n _ hs.1 hs.2) ?_
    refine Consumes.bind (Consumes.fread 4 S.dec32 n _ ho.1 ho.2) ?_
    refine Consumes.bind (Consumes.fread1 4 _ _ l4) ?_
    rw [u4]
    refine Consumes.bind (Consumes.chars _ f.desc rfl) ?_
    have hk : ((n : Int) + 1).toNat = f.names.length := by rw [hn.1]; omega
    have hk2 : ((n : Int) + 1).toNat = f.units.length := by rw [hu.1]; omega
    have hnm := Consumes.names f.width f.names hn.2
    have hun := Consumes.names f.width f.units hu.2
    rw [← hk] at hnm
    rw [← hk2] at hun
    refine Consumes.bind hnm ?_
    refine Consumes.bind hun ?_
    refine Consumes.bind0 (Consumes.pure []) ?_
    refine Consumes.cast (u := f.rows.flatten.flatten ++ []) ?_ (List.append_nil _) rfl
    refine Consumes.bind (Consumes.table 2 (fun bs => S.ofInt (unpackInt 2 bs)) (S.ofInt 0) n n0 n1 f.rows hr) ?_
    exact Consumes.pure _
  · refine (read_of S f n 4 _ _ _ _ (S.ofInt 0) 2 (by simp) (by simp [hs.1]) (by simp [ho.1]) hr).congr
      (fun i hi => ?_) (fun i j hi hj => ?_)
    · simp [List.getD_eq_getElem?_getD, hi]
    · rw [getD_map_dec _ _ _ _ (by rw [hs.1]; exact hj), getD_map_dec _ _ _ _ (by rw [ho.1]; exact hj)]
      rfl

/-- **C80** (other identifiers) — a file that starts with another number is refused, whatever follows. -/
theorem C80_other (S : FloatSys) (b0 b1 : UInt8) (rest : Bytes)
    (h : unpackInt 2 [b0, b1] ≠ 1 ∧ unpackInt 2 [b0, b1] ≠ 2 ∧ unpackInt 2 [b0, b1] ≠ 3 ∧ unpackInt 2 [b0, b1] ≠ 4) :
    load S (b0 :: b1 :: rest) = .error .badFileID := by
  unfold load
  refine (Reader.bind_ok (fread1_append 2 (unpackInt 2) [b0, b1] rest rfl)).trans ?_
  rw [if_pos (by rintro (e | e | e | e) <;> simp_all)]
  rfl

/-- files whose first number is 5 or 0 -/
example (S : FloatSys) : load S [5, 0, 1, 2] = .error .badFileID ∧ load S [0, 0] = .error .badFileID :=
  ⟨C80_other S 5 0 [1, 2] (by decide), C80_other S 0 0 [] (by decide)⟩

/-- a file of two channels, three rows and names of four characters -/
def exContent (w : Nat) : Content where
  width := 10
  timeA := List.replicate 8 1
  timeB := List.replicate 8 2
  scl := [[1, 2, 3, 4], [5, 6, 7, 8]]
  off := [[0, 0, 0, 1], [0, 0, 0, 2]]
  desc := [65, 66, 32]
  names := List.replicate 3 (List.replicate 10 65)
  units := List.replicate 3 (List.replicate 10 66)
  times := [[0, 0, 0, 0], [1, 0, 0, 0], [2, 0, 0, 0]]
  rows := List.replicate 3 (List.replicate 2 (List.replicate w 7))

/-- the hypotheses hold for it -/
example : (exContent 2).Ok 2 2 ∧ (exContent 8).Ok 2 8 := by
  constructor <;> exact ⟨by decide, by decide, by decide, by decide, by decide, by decide, by decide, by decide,
    by decide, by decide, by decide, by decide, by decide⟩

end Verif.FastBin
