import Verif.Lemmas.VtkFile
import Verif.Props.Vtk
import Verif.Lemmas.Str
import Verif.Lemmas.FastLine
import Verif.Lemmas.DeckRead
import Mathlib.Data.List.TakeWhile
/-!
# VTK files, written and read

Properties C216 to C219.
-/
namespace Verif.VtkFile
open Verif.Py
open Verif.DeckRead (ok_bind)

/-- **C216** a mesh that is written and read, in the binary or the text form, comes back:
points (completed to three dimensions), blocks of cells, names and arrays of the point data and of
the cell data, each array of the cell data cut into blocks as it was -/
theorem C216_mesh {V : Type} {C : Codec V} (hC : C.Laws) (bin : Bool) (m : Mesh V) (hm : GoodMesh C bin m) :
    ∃ s out, writeFile C bin m = .ok s ∧ readFile C s = .ok out ∧ out.points = some (back C m.points.arr) ∧
      out.cells = m.cells.map (fun b => (b.name, b.rows)) ∧ out.pointData = m.pointData.map (fun p => (p.1, back C p.2.arr)) ∧
      out.cellData = m.cellData.map (fun p => (p.1, p.2.map fun f => back C f.arr)) ∧ out.fieldData = [] ∧ out.axes = none ∧ out.grid = [] := by
  obtain ⟨fs0, k1, -, -⟩ := Vtk.C38_blocks_partial m.cells hm.fixed hm.some hm.rows hm.separated (List.replicate (Vtk.allCells m.cells).length ()) (by simp)
  rw [Vtk.writeRead] at k1
  cases hw : Vtk.writeCells m.cells with
  | error e => rw [hw] at k1; cases k1
  | ok p =>
    obtain ⟨c, ct⟩ := p
    rw [hw] at k1
    simp only at k1
    obtain ⟨h7, gs, k2⟩ := readCells_any c ct _ _ fs0 ([] : List Unit) k1
    obtain ⟨s, i, l, w1, w2, w3, w4, w5, w6, w7, w8, w9, w10⟩ := written hC bin m hm c ct hw
    have hcd : mapE (cellPieces c ct) i.cellData = .ok (m.cellData.map fun p => (p.1, p.2.map fun f => back C f.arr)) := by
      rw [w10]
      have : ∀ (d : List (Str × List (Field V))) (l : List (Str × Field V)), (∀ p ∈ d, p ∈ m.cellData) → mapE (concatNamed C) d = .ok l →
          mapE (cellPieces c ct) (l.map fun p => (p.1, flatOne p.2.arr)) = .ok (d.map fun p => (p.1, p.2.map fun f => back C f.arr)) := by
        intro d
        induction d with
        | nil =>
          intro l _ h
          rw [mapE] at h
          obtain rfl := Except.ok.inj h
          rfl
        | cons p d ih =>
          intro l hd h
          have hp := hd p List.mem_cons_self
          obtain ⟨dt, tail, h1, h2⟩ := hm.cellData p hp
          have hne : p.2 ≠ [] := by
            intro e
            rw [e] at h2
            exact hm.some (List.map_eq_nil_iff.1 h2.symm)
          obtain ⟨f, g1, -, -, -⟩ := concat_ok C bin p dt tail h1 hne
          rw [mapE, g1] at h
          simp only [ok_bind] at h
          cases hr : mapE (concatNamed C) d with
          | error e => rw [hr] at h; cases h
          | ok l' =>
            rw [hr] at h
            simp only [ok_bind] at h
            obtain rfl := Except.ok.inj h
            rw [List.map_cons, mapE, cell_back C bin m hm c ct hw p hp f g1, ih l' (fun x hx => hd x (List.mem_cons_of_mem _ hx)) hr]
            rfl
      exact this m.cellData l (fun _ h => h) w3
    refine ⟨s, ⟨i.points, m.cells.map (fun b => (b.name, b.rows)), i.pointData, m.cellData.map (fun p => (p.1, p.2.map fun f => back C f.arr)),
      i.fieldData, none, []⟩, w1, ?_, ?_, rfl, w9, rfl, w8, rfl, rfl⟩
    · rw [readFile, w2]
      simp only [ok_bind, finish, w4, if_true, finishCells, w6, w7, map_toNat hC, translateAll, k2, if_neg h7, hcd]
    · rw [w5, pad_back C _ hm.dim]

example (bin : Bool) : GoodMesh exCodec bin (exMesh [3] [[1, 2, 3], [70000, 5, 6]]) :=
  exMesh_good bin _ _ (Or.inr ⟨3, by decide, rfl⟩) (by decide) (by decide)

example : (readFile exCodec (exText [2] [[1, 2], [70000, 5]])).map (fun o => o.points) = .ok (some ⟨[3], [[10, 20, 0], [30, 40, 0]]⟩) := by
  decide +kernel

example : (readFile exCodec (exText [2] [[1, 2], [70000, 5]])).map (fun o => o.cellData) = .ok [("c".toList, [⟨[], [[258]]⟩])] := by
  decide +kernel

/-- **C218** a file of structured points with SCALARS and VECTORS, binary or text: the axes are those of the
origin and spacing, the points are all their combinations, the first coordinate being the fastest, and the grid of
each array has at `(i, j, l)` the numbers that the file gives for the point at the `i`-th, `j`-th and `l`-th places
of the axes -/
theorem C218_grid {V : Type} {C : Codec V} (hC : C.Laws) (hax : ∀ o s n, (C.axis o s n).length = n) (bin : Bool) (nx ny nz : Nat)
    (hx : 1 ≤ nx) (hy : 1 ≤ ny) (hz : 1 ≤ nz) (hsome : 1 < nx * ny * nz) (o s : V × V × V) (h : Head) (hh : GoodHead C bin nx ny nz o s h)
    (items : List (Item V)) (hi : ∀ it ∈ items, GoodItem C bin (nx * ny * nz) it) (hn : (items.map Item.name).Nodup) :
    ∃ out xs ys zs, readFile C (h.text (items.flatMap (Item.text C bin))) = .ok out ∧ out.axes = some (xs, ys, zs) ∧
      xs = C.axis o.1 s.1 nx ∧ ys = C.axis o.2.1 s.2.1 ny ∧ zs = C.axis o.2.2 s.2.2 nz ∧
      out.pointData = items.map (fun it => (it.name, ⟨[it.comps], it.rows⟩)) ∧
      List.Forall₂ (fun (it : Item V) (g : Str × Grid V) => g.1 = it.name ∧ g.2.nx = nx ∧ g.2.ny = ny ∧ g.2.nz = nz ∧ g.2.comps = it.comps ∧
        ∀ i j l m, i < nx → j < ny → l < nz → m < it.comps → ∃ (p : Nat) (x y z : V) (row : List V) (v : V), it.rows[p]? = some row ∧
          (out.points.map Arr.rows).bind (·[p]?) = some [x, y, z] ∧ xs[i]? = some x ∧ ys[j]? = some y ∧ zs[l]? = some z ∧
          row[m]? = some v ∧ g.2.at_ i j l m = some v) items out.grid := by
  obtain ⟨rows, types, hg1, hg2, hg3, -⟩ := Vtk.C37_partial nx ny nz hx hy hz hsome
  have hrne : rows ≠ [] := by
    intro e
    rw [e] at hg3
    have h0 : Vtk.gridCells nx ny nz = [] := by
      have := hg3.length_eq
      simpa using this.symm
    have hm : (0, 0, 0) ∈ Vtk.gridCells nx ny nz := by
      rw [Vtk.gridCells, Vtk.mem_box]
      omega
    rw [h0] at hm
    cases hm
  obtain ⟨h7, bs, gs, hrc⟩ := gen_translate hg1 hrne
  obtain ⟨oa, ob, oc, ho, ho1, ho2, ho3⟩ := hh.origin
  obtain ⟨sa, sb, sc, hs, hs1, hs2, hs3⟩ := hh.spacing
  have hN : 0 < nx * ny * nz := by omega
  have hpd := hh.pointData
  have hds := hh.dataset
  -- the states
  set i0 : Info V := { ascii := !bin } with hi0
  set i1 : Info V := { i0 with active := .dataset, type := some "STRUCTURED_POINTS".toList } with hi1
  set i2 : Info V := { i1 with dims := some [(nx : Int), (ny : Int), (nz : Int)] } with hi2
  set i3 : Info V := { i2 with infos := [("ORIGIN".toList, [o.1, o.2.1, o.2.2])] } with hi3
  obtain ⟨key, hkey, hks⟩ : ∃ key : String, KeyLine h.spacing key [sa, sb, sc] ∧ (key = "SPACING" ∨ key = "ASPECT_RATIO") := by
    rcases hs with hs | hs
    · exact ⟨_, hs, Or.inl rfl⟩
    · exact ⟨_, hs, Or.inr rfl⟩
  set i4 : Info V := { i3 with infos := [("ORIGIN".toList, [o.1, o.2.1, o.2.2]), (key.toList, [s.1, s.2.1, s.2.2])] } with hi4
  set i5 : Info V := { i4 with active := .pointData, numItems := nx * ny * nz } with hi5
  set i6 : Info V := { i5 with pointData := items.map fun it => (it.name, ⟨[it.comps], it.rows⟩) } with hi6
  set D := items.flatMap (Item.text C bin) with hD
  have hint : ∀ n : Nat, intOf (num n) = .ok (n : Int) := fun n => by
    rw [intOf, num, FastLine.strIsInt_showInt, FastLine.pyInt_showInt]; rfl
  have l1 : ∀ n t, loop C (n + 1) i0 (h.dataset ++ '\n' :: t) = loop C n i1 t := by
    intro n t
    obtain ⟨w, hw1, hw2⟩ := keyLine_words hds
    refine loop_step hC n i0 i1 _ t t hds.1 hds.2.1 ?_
    rw [readLine_sec C _ _ _ _ _ "DATASET" hw1 hw2 (by decide), readSection]
    have hword : word [w, "STRUCTURED_POINTS".toList] 1 = .ok "STRUCTURED_POINTS".toList := rfl
    have hup : "STRUCTURED_POINTS".toList.map Char.toUpper = "STRUCTURED_POINTS".toList := by decide
    simp only [(by decide : ¬ ("DATASET" : String) = "METADATA"), if_false, if_true, hword, ok_bind, hup,
      (by decide : String.ofList "STRUCTURED_POINTS".toList ∈ datasetTypes), hi1]
  have l2 : ∀ n t, loop C (n + 1) i1 (h.dims ++ '\n' :: t) = loop C n i2 t := by
    intro n t
    refine step_info hC i1 i2 _ _ _ hh.dims (by decide) rfl (fun w => ?_) n t
    rw [readInfo, if_neg (fun hne => hne rfl), if_pos rfl]
    simp only [List.drop_succ_cons, List.drop_zero, mapE, hint, ok_bind]
    rfl
  have l3 : ∀ n t, loop C (n + 1) i2 (h.origin ++ '\n' :: t) = loop C n i3 t := by
    intro n t
    refine step_info hC i2 i3 _ _ _ ho (by decide) rfl (fun w => ?_) n t
    rw [readInfo, if_neg (fun hne => hne rfl), if_neg (by decide)]
    simp only [List.drop_succ_cons, List.drop_zero, mapE, floatOf, ho1, ho2, ho3, ok_bind]
    rfl
  have l4 : ∀ n t, loop C (n + 1) i3 (h.spacing ++ '\n' :: t) = loop C n i4 t := by
    intro n t
    refine step_info hC i3 i4 _ _ _ hkey (by rcases hks with rfl | rfl <;> decide) rfl (fun w => ?_) n t
    rw [readInfo, if_neg (fun hne => hne rfl), if_neg (by rcases hks with rfl | rfl <;> decide)]
    simp only [List.drop_succ_cons, List.drop_zero, mapE, floatOf, hs1, hs2, hs3, ok_bind]
    have : setKey i3.infos key.toList [s.1, s.2.1, s.2.2] = [("ORIGIN".toList, [o.1, o.2.1, o.2.2]), (key.toList, [s.1, s.2.1, s.2.2])] := by
      rw [setKey_fresh]
      · rfl
      · rw [hi3]
        rcases hks with rfl | rfl <;> simp only [List.map_cons, List.map_nil] <;> decide
    rw [this]
    rfl
  have l5 : ∀ n t, loop C (n + 1) i4 (h.pointData ++ '\n' :: t) = loop C n i5 t := by
    intro n t
    obtain ⟨w, hw1, hw2⟩ := keyLine_words hpd
    refine loop_step hC n i4 i5 _ t t hpd.1 hpd.2.1 ?_
    rw [readLine_sec C _ _ _ _ _ "POINT_DATA" hw1 hw2 (by decide), readSection]
    have hcount : (word [w, num (nx * ny * nz)] 1).bind count = .ok (nx * ny * nz) := count_num _
    simp only [(by decide : ¬ ("POINT_DATA" : String) = "METADATA"), (by decide : ¬ ("POINT_DATA" : String) = "DATASET"),
      (by decide : ¬ ("POINT_DATA" : String) = "POINTS"), (by decide : ¬ ("POINT_DATA" : String) = "CELLS"),
      (by decide : ¬ ("POINT_DATA" : String) = "CELL_TYPES"), if_false, if_true, hcount, ok_bind, hi5]
  have hread : readSections C (h.text D) = .ok i6 := by
    have hform : Ascii h.form := by
      rw [hh.form]
      cases bin
      · exact (by decide : ∀ c ∈ "ASCII".toList, Char.toNat c < 128)
      · exact (by decide : ∀ c ∈ "BINARY".toList, Char.toNat c < 128)
    have hnl : '\n' ∉ h.form := by rw [hh.form]; cases bin <;> decide
    rw [Head.text, readSections, readline_line _ _ hh.titles.1]
    simp only
    rw [readline_line _ _ hh.titles.2, textline_line hC _ _ hnl hform]
    simp only [ok_bind]
    have hty : (strip (h.form ++ ['\n'])).map Char.toUpper = (if bin then "BINARY" else "ASCII").toList := by
      rw [hh.form]
      cases bin <;> decide
    rw [hty, if_neg (by cases bin <;> decide)]
    have hasc : ({ ascii := decide ((if bin then "BINARY" else "ASCII").toList = "ASCII".toList) } : Info V) = i0 := by
      rw [hi0]
      cases bin <;> congr 1
    rw [hasc]
    have hfl : items.length ≤ D.length := flat_items C bin items
    have : ∀ F, F = (h.dataset ++ '\n' :: (h.dims ++ '\n' :: (h.origin ++ '\n' :: (h.spacing ++ '\n' :: (h.pointData ++ '\n' :: D))))).length + 1 →
        loop C F i0 (h.dataset ++ '\n' :: (h.dims ++ '\n' :: (h.origin ++ '\n' :: (h.spacing ++ '\n' :: (h.pointData ++ '\n' :: D))))) = .ok i6 := by
      intro F hF
      obtain ⟨n, rfl⟩ : ∃ n, F = n + 5 := ⟨F - 5, by simp only [List.length_append, List.length_cons] at hF; omega⟩
      have hn' : items.length < n := by simp only [List.length_append, List.length_cons] at hF; omega
      rw [l1 (n + 4), l2 (n + 3), l3 (n + 2), l4 (n + 1), l5 n, hD,
        step_items hC bin (nx * ny * nz) hN items hi i5 rfl rfl rfl rfl (by simpa [hi5, hi4, hi3, hi2, hi1, hi0] using hn) n hn']
      rfl
    exact this _ rfl
  have hgrid := mapE_forall (fun p : Str × Arr V => (gridOf nx ny nz p.2).map fun g => (p.1, g))
    (fun p g => g.1 = p.1 ∧ gridOf nx ny nz p.2 = .ok g.2) i6.pointData (fun p hp => by
      obtain ⟨it, hit, rfl⟩ := List.mem_map.1 hp
      obtain ⟨g, hg, -⟩ := gridOf_ok nx ny nz it.comps it.rows (hi it hit).count (hi it hit).width
      exact ⟨(it.name, g), by simp only [hg]; rfl, rfl, hg⟩)
  obtain ⟨gr, hgr1, hgr2⟩ := hgrid
  refine ⟨⟨some ⟨[3], (Vtk.genPoints (C.axis o.1 s.1 nx) (C.axis o.2.1 s.2.1 ny) (C.axis o.2.2 s.2.2 nz)).map fun p => [p.1, p.2.1, p.2.2]⟩,
    bs, i6.pointData, [], [], some (C.axis o.1 s.1 nx, C.axis o.2.1 s.2.1 ny, C.axis o.2.2 s.2.2 nz), gr⟩, _, _, _, ?_, rfl, rfl, rfl, rfl, rfl, ?_⟩
  · rw [readFile, hread]
    have hty : i6.type = some "STRUCTURED_POINTS".toList := rfl
    have hdm : i6.dims = some [(nx : Int), (ny : Int), (nz : Int)] := rfl
    have hor : getInfo i6 "ORIGIN" = .ok [o.1, o.2.1, o.2.2] := by
      rw [getInfo]
      have : i6.infos.lookup "ORIGIN".toList = some [o.1, o.2.1, o.2.2] := rfl
      rw [this]
    have hsp : getSpacing i6 = .ok [s.1, s.2.1, s.2.2] := by
      have hinf : i6.infos = [("ORIGIN".toList, [o.1, o.2.1, o.2.2]), (key.toList, [s.1, s.2.1, s.2.2])] := rfl
      rw [getSpacing, getInfo, getInfo, hinf]
      rcases hks with rfl | rfl
      · rw [if_pos (by simp only [List.map_cons, List.map_nil]; decide)]; rfl
      · rw [if_neg (by simp only [List.map_cons, List.map_nil]; decide)]; rfl
    have htr : translateAll rows.flatten types i6.cellData = .ok (bs, []) := by
      rw [translateAll, hrc]
      simp only
      rw [if_neg h7]
      rfl
    simp only [ok_bind, finish, hty, if_neg (by decide : ¬ "STRUCTURED_POINTS".toList = "UNSTRUCTURED_GRID".toList), if_true]
    rw [finishPoints, hdm]
    simp only
    rw [hor]
    simp only [ok_bind]
    rw [hsp]
    simp only [ok_bind, Int.toNat_natCast, hg1]
    rw [if_neg (by omega), htr]
    simp only [ok_bind, hgr1]
    rfl
  · have hmap : i6.pointData = items.map fun it => (it.name, (⟨[it.comps], it.rows⟩ : Arr V)) := rfl
    rw [hmap, List.forall₂_map_left_iff] at hgr2
    refine (List.forall₂_iff_get.2 ⟨hgr2.length_eq, ?_⟩)
    intro q h1 h2
    obtain ⟨e1, e2⟩ := hgr2.get h1 h2
    have hit := hi (items.get ⟨q, h1⟩) (List.get_mem _ _)
    obtain ⟨g, hg, a1, a2, a3, a4, a5⟩ := gridOf_ok nx ny nz (items.get ⟨q, h1⟩).comps (items.get ⟨q, h1⟩).rows hit.count hit.width
    have e2' : g = (gr.get ⟨q, h2⟩).2 := by
      have : gridOf nx ny nz ⟨[(items.get ⟨q, h1⟩).comps], (items.get ⟨q, h1⟩).rows⟩ = .ok (gr.get ⟨q, h2⟩).2 := e2
      rw [hg] at this
      exact Except.ok.inj this
    rw [← e2']
    refine ⟨e1, a1, a2, a3, a4, fun i j l m hi' hj hl hm => ?_⟩
    obtain ⟨row, v, b1, b2, b3⟩ := a5 i j l m hi' hj hl hm
    have hpt := (Vtk.C37_points (C.axis o.1 s.1 nx) (C.axis o.2.1 s.2.1 ny) (C.axis o.2.2 s.2.2 nz) i j l (by rw [hax]; exact hi') (by rw [hax]; exact hj)
      (by rw [hax]; exact hl)).1
    simp only [hax, Vtk.pointNo] at hpt
    refine ⟨i + nx * (j + ny * l), _, _, _, row, v, b1, ?_, List.getElem?_eq_getElem (by rw [hax]; exact hi'), List.getElem?_eq_getElem (by rw [hax]; exact hj),
      List.getElem?_eq_getElem (by rw [hax]; exact hl), b2, b3⟩
    simp only [Option.map_some, Option.bind_some, List.getElem?_map]
    rw [hpt]
    rfl

example : GoodHead exCodec false 2 1 1 (0, 0, 0) (1, 1, 1) exHead ∧ (∀ it ∈ [exItem], GoodItem exCodec false (2 * 1 * 1) it) ∧
    ([exItem].map Item.name).Nodup ∧ ∀ o s n, (exCodec.axis o s n).length = n :=
  ⟨exHead_good, by simpa using exItem_good, by decide, by intro o s n; simp [exCodec]⟩

example : (readFile exCodec (exHead.text ([exItem].flatMap (Item.text exCodec false)))).map (fun o => o.grid.map fun g => g.2.at_ 1 0 0 2) =
    .ok [some 6] := by
  decide +kernel

/-- **C217** violated: an array of rows of one number is read back as numbers, and the
binary file of an array of matrices cannot be read -/
theorem C217_fails : ∃ (V : Type) (C : Codec V) (_ : C.Laws) (m1 m2 : Mesh V) (s1 s2 : Str),
    (∃ k a b, m1.pointData = [(k, ⟨"int32", ⟨[1], [[a], [b]]⟩⟩)] ∧ writeFile C true m1 = .ok s1 ∧
      (readFile C s1).map (fun o => o.pointData) = .ok [(k, ⟨[], [[a], [b]]⟩)]) ∧
    (∃ k r1 r2, m2.pointData = [(k, ⟨"int32", ⟨[2, 2], [r1, r2]⟩⟩)] ∧ writeFile C true m2 = .ok s2 ∧
      (readFile C s2).map (fun o => o.pointData) = .error .read) := by
  refine ⟨Nat, exCodec, exCodec_laws, exMesh [1] [[5], [6]], exMesh [2, 2] [[1, 2, 3, 4], [5, 6, 7, 8]], exText [1] [[5], [6]],
    exText [2, 2] [[1, 2, 3, 4], [5, 6, 7, 8]], ⟨"t".toList, 5, 6, rfl, ?_, ?_⟩, ⟨"t".toList, _, _, rfl, ?_, ?_⟩⟩
  all_goals decide +kernel

/-- **C217** the arrays of numbers and of rows of three or more numbers keep their shape and their rows -/
theorem C217_partial {V : Type} {C : Codec V} (hC : C.Laws) (bin : Bool) (m : Mesh V) (hm : GoodMesh C bin m)
    (hp : ∀ p ∈ m.pointData, p.2.arr.tail = [] ∨ ∃ k, 3 ≤ k ∧ p.2.arr.tail = [k])
    (hc : ∀ p ∈ m.cellData, ∀ f ∈ p.2, f.arr.tail = [] ∨ ∃ k, 3 ≤ k ∧ f.arr.tail = [k]) :
    ∃ s out, writeFile C bin m = .ok s ∧ readFile C s = .ok out ∧ out.pointData = m.pointData.map (fun p => (p.1, p.2.arr)) ∧
      out.cellData = m.cellData.map (fun p => (p.1, p.2.map Field.arr)) := by
  obtain ⟨s, out, h1, h2, -, -, h3, h4, -⟩ := C216_mesh hC bin m hm
  have hb : ∀ a : Arr V, (a.tail = [] ∨ ∃ k, 3 ≤ k ∧ a.tail = [k]) → back C a = a := by
    rintro ⟨t, r⟩ (rfl | ⟨k, hk, rfl⟩)
    · rfl
    · have e2 : ¬ [k] = [2] := by simp; omega
      have e1 : ¬ [k] = [1] := by simp; omega
      simp only [back, if_neg e2, if_neg e1]
  refine ⟨s, out, h1, h2, ?_, ?_⟩
  · rw [h3]
    exact List.map_congr_left fun p hpm => by rw [hb _ (hp p hpm)]
  · rw [h4]
    exact List.map_congr_left fun p hpm => by
      rw [List.map_congr_left fun f hf => hb _ (hc p hpm f hf)]

example (bin : Bool) : GoodMesh exCodec bin (exMesh [] [[7], [300]]) ∧ (∀ p ∈ (exMesh [] [[7], [300]]).pointData, p.2.arr.tail = []) ∧
    ∀ p ∈ (exMesh [] [[7], [300]]).cellData, ∀ f ∈ p.2, f.arr.tail = [] :=
  ⟨exMesh_good bin _ _ (Or.inl rfl) (by decide) (by decide), by decide, by decide⟩

/-- **C219** violated: a file of structured points whose point data is a FIELD of numbers cannot be read -/
theorem C219_fails : ∃ (V : Type) (C : Codec V) (_ : C.Laws) (h : Head) (o s : V × V × V), GoodHead C false 2 1 1 o s h ∧
    (readFile C (h.text "FIELD FieldData 1\nT 1 2 int\n7 9\n".toList)).map (fun o => o.pointData) = .error .index :=
  ⟨Nat, exCodec, exCodec_laws, exHead, (0, 0, 0), (1, 1, 1), exHead_good, by decide +kernel⟩

/-- **C219** the grid of an array of rows of `k` numbers -/
theorem C219_partial {V : Type} (nx ny nz k : Nat) (rows : List (List V)) (hn : rows.length = nx * ny * nz) (hw : ∀ r ∈ rows, r.length = k) :
    ∃ g, gridOf nx ny nz ⟨[k], rows⟩ = .ok g ∧ ∀ i j l m, i < nx → j < ny → l < nz → m < k →
      ∃ row v, rows[i + nx * (j + ny * l)]? = some row ∧ row[m]? = some v ∧ g.at_ i j l m = some v := by
  obtain ⟨g, h1, -, -, -, -, h2⟩ := gridOf_ok nx ny nz k rows hn hw
  exact ⟨g, h1, h2⟩

example : (gridOf 2 1 1 ⟨[1], [[7], [9]]⟩).map (fun g => g.at_ 1 0 0 0) = .ok (some 9) := by decide

end Verif.VtkFile
