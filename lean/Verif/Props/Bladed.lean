import Verif.Model.Bladed
import Verif.Lemmas.Grid
import Verif.Py.Dec
import Mathlib.Data.List.Nodup
/-!
# Properties of Bladed output files

C39 column mapping, C40 merging of result files, C62 time base of merged series.
-/
namespace Verif.Bladed
open Verif.Py

/-! ## C39: columns of 3-d results -/

/-- text of a section that is a number of hundredths: a toy for `str(around(float(sec),2))+'m'`
on sections given in thousandths -/
def labEx (n : Nat) : Str := natStr (n / 10) ++ "m".toList

/-- C39 fails: sections closer than the two decimals of the label get one name, and
`toDataFrame` drops the second series -/
theorem C39_fails :
    let f := orgData 0 labEx [1001, 1002] ["Mx".toList] ["Nm".toList] [[[5], [7]], [[6], [8]]]
    f.names = ["100m-Mx".toList, "100m-Mx".toList] ∧ f.rows = [[5, 7], [6, 8]] ∧
    frame f.names f.units [col 0 f.rows 0, col 0 f.rows 1] = .ok [("100m-Mx [Nm]".toList, [5, 6])] := by decide +kernel

/-- C39 fails: with fewer units than channels, series are lost and labels no longer fit
the number of columns -/
theorem C39_units_fails :
    let f := orgData 0 labEx [1000, 2000] ["Mx".toList, "My".toList] ["Nm".toList] [[[5, 6], [7, 8]]]
    f.names = ["100m-Mx".toList, "200m-Mx".toList] ∧ f.rows = [[5, 7, 0, 0]] := by decide +kernel

/-- **C39** for `OrgData`, with one unit per channel: column `isec*nChan + ichan` holds the
series of that section and channel under their label and unit, and each column comes from
exactly one section and channel. (Missing for the full property: fewer units than channels, see
`C39_units_fails`; distinct names, see `C39_fails`.) -/
theorem C39_partial (zero : α) (lab : σ → Str) (secs : List σ) (chans units : List Str) (hu : units.length = chans.length)
    (data : List (List (List α))) (hd : ∀ row ∈ data, row.length = secs.length ∧ ∀ s ∈ row, s.length = chans.length) :
    let f := orgData zero lab secs chans units data
    (∀ isec ichan (hs : isec < secs.length) (hc : ichan < chans.length),
      f.names[isec * chans.length + ichan]? = some (lab secs[isec] ++ '-' :: chans[ichan]) ∧
      f.units[isec * chans.length + ichan]? = units[ichan]? ∧
      ∀ t, (ht : t < data.length) → (f.rows[t]?.bind fun r => r[isec * chans.length + ichan]?) =
        (data[t][isec]?.bind fun s => s[ichan]?)) ∧
    f.names.length = secs.length * chans.length ∧ f.units.length = secs.length * chans.length ∧
    f.rows.length = data.length ∧ (∀ r ∈ f.rows, r.length = secs.length * chans.length) ∧
    (∀ j < secs.length * chans.length, ∃! p : Nat × Nat, p.1 < secs.length ∧ p.2 < chans.length ∧
      p.1 * chans.length + p.2 = j) := by
  intro f
  have hz : (chans.zip units).length = chans.length := by simp [hu]
  have hn : ∀ sec ∈ secs, ((chans.zip units).map fun cu => label lab sec cu.1).length = chans.length := by
    intro sec _; rw [List.length_map, hz]
  have hun : ∀ sec ∈ secs, ((chans.zip units).map fun cu => cu.2).length = chans.length := by
    intro sec _; rw [List.length_map, hz]
  have hused : ∀ row : List (List α), ∀ isec ∈ List.range secs.length, ((List.range (chans.zip units).length).map fun ichan =>
      ((row[isec]?.getD [])[ichan]?).getD zero).length = chans.length := by
    intro row _ _; rw [List.length_map, List.length_range, hz]
  have hrowlen : ∀ row : List (List α), ((List.range secs.length).flatMap fun isec =>
      (List.range (chans.zip units).length).map fun ichan => ((row[isec]?.getD [])[ichan]?).getD zero).length =
      secs.length * chans.length := by
    intro row; rw [flatMap_length_const _ _ (hused row), List.length_range]
  have horg : ∀ row : List (List α), orgRow zero secs.length chans units row = (List.range secs.length).flatMap fun isec =>
      (List.range (chans.zip units).length).map fun ichan => ((row[isec]?.getD [])[ichan]?).getD zero := by
    intro row
    rw [orgRow]
    simp only [hrowlen, Nat.sub_self, List.replicate_zero, List.append_nil]
  refine ⟨?_, ?_, ?_, by simp [f, orgData], ?_, ?_⟩
  · intro isec ichan hs hc
    refine ⟨?_, ?_, ?_⟩
    · show (secs.flatMap _)[_]? = _
      rw [flatMap_getElem?_block _ _ hn _ _ hc hs, List.getElem?_map]
      have hcz : ichan < (chans.zip units).length := by rw [hz]; exact hc
      rw [List.getElem?_eq_getElem hcz]
      simp [label]
    · show (secs.flatMap _)[_]? = _
      rw [flatMap_getElem?_block _ _ hun _ _ hc hs, List.getElem?_map]
      have hcz : ichan < (chans.zip units).length := by rw [hz]; exact hc
      rw [List.getElem?_eq_getElem hcz, List.getElem?_eq_getElem (by omega)]
      simp
    · intro t ht
      show ((data.map (orgRow zero secs.length chans units))[t]?).bind _ = _
      rw [List.getElem?_map, List.getElem?_eq_getElem ht, Option.map_some, Option.bind_some, horg]
      have hsr : isec < (List.range secs.length).length := by simpa using hs
      rw [flatMap_getElem?_block _ _ (hused _) _ _ hc hsr, List.getElem?_map]
      rw [List.getElem?_range (by rw [hz]; exact hc), Option.map_some, List.getElem_range]
      obtain ⟨h1, h2⟩ := hd data[t] (List.getElem_mem ht)
      have hi : isec < data[t].length := by rw [h1]; exact hs
      have hi2 : ichan < data[t][isec].length := by rw [h2 _ (List.getElem_mem hi)]; exact hc
      rw [List.getElem?_eq_getElem hi, Option.getD_some, Option.bind_some, List.getElem?_eq_getElem hi2, Option.getD_some]
  · show (secs.flatMap _).length = _
    exact flatMap_length_const _ _ hn
  · show (secs.flatMap _).length = _
    exact flatMap_length_const _ _ hun
  · intro r hr
    obtain ⟨row, _, rfl⟩ := List.mem_map.1 hr
    rw [horg, hrowlen]
  · intro j hj
    obtain ⟨h1, h2, h3⟩ := block_index hj
    refine ⟨(j / chans.length, j % chans.length), ⟨h1, h2, h3⟩, ?_⟩
    rintro ⟨a, b⟩ ⟨_, hb, hab⟩
    simp only at hb hab
    have hpos : 0 < chans.length := by omega
    have e1 : j / chans.length = a := by
      rw [← hab, Nat.mul_comm, Nat.mul_add_div hpos, Nat.div_eq_of_lt hb]; omega
    have e2 : j % chans.length = b := by
      rw [← hab, Nat.mul_comm, Nat.mul_add_mod, Nat.mod_eq_of_lt hb]
    rw [← e1, ← e2]

example : (orgData 0 labEx [1000, 2000] ["Mx".toList, "My".toList] ["Nm".toList, "kNm".toList] [[[5, 6], [7, 8]], [[1, 2], [3, 4]]]) =
    ⟨["100m-Mx".toList, "100m-My".toList, "200m-Mx".toList, "200m-My".toList], ["Nm".toList, "kNm".toList, "Nm".toList, "kNm".toList],
      [[5, 6, 7, 8], [1, 2, 3, 4]]⟩ := by decide +kernel
example : ∀ row ∈ [[[5, 6], [7, 8]], [[1, 2], [3, 4]]], row.length = 2 ∧ ∀ s ∈ row, s.length = 2 := by decide

/-- the file content: sample `(t*nSec + s)*nSens + c` is channel `c` of section `s` at time `t`;
a content of another size is refused -/
theorem C39_file (nMajor nSec nSens : Nat) (flat : List α) :
    (flat.length = nMajor * nSec * nSens → ∃ data, reshape3 nMajor nSec nSens flat = .ok data ∧
      data.length = nMajor ∧ (∀ row ∈ data, row.length = nSec ∧ ∀ s ∈ row, s.length = nSens) ∧
      ∀ t s c, t < nMajor → s < nSec → c < nSens →
        ((data[t]?.bind fun r => r[s]?).bind fun x => x[c]?) = flat[(t * nSec + s) * nSens + c]?) ∧
    (flat.length ≠ nMajor * nSec * nSens → reshape3 nMajor nSec nSens flat = .error .value) := by
  refine ⟨fun h => ⟨_, by rw [reshape3, if_pos h], by simp, ?_, ?_⟩, fun h => by rw [reshape3, if_neg h]⟩
  · intro row hrow
    obtain ⟨t, ht, rfl⟩ := List.mem_map.1 hrow
    refine ⟨by simp, ?_⟩
    intro x hx
    obtain ⟨s, hs, rfl⟩ := List.mem_map.1 hx
    rw [List.mem_range] at ht hs
    have h1 := block_lt hs ht
    have h2 : (t * nSec + s + 1) * nSens ≤ nMajor * nSec * nSens := Nat.mul_le_mul_right _ h1
    rw [Nat.add_mul, Nat.one_mul] at h2
    rw [List.length_take, List.length_drop]
    omega
  · intro t s c ht hs hc
    simp [ht, hs, hc]

example : reshape3 2 2 1 [1, 2, 3, 4] = .ok [[[1], [2]], [[3], [4]]] := by decide +kernel

/-- no column is dropped from the data frame when the labels are distinct -/
theorem C39_frame_partial (names units : List Str) (cols : List (List α)) (h1 : units.length = names.length)
    (h2 : cols.length = names.length) (hnd : ((names.zip units).map fun nu => nu.1 ++ " [".toList ++ nu.2 ++ "]".toList).Nodup) :
    frame names units cols = .ok (((names.zip units).map fun nu => nu.1 ++ " [".toList ++ nu.2 ++ "]".toList).zip cols) := by
  have hl : ((names.zip units).map fun nu => nu.1 ++ " [".toList ++ nu.2 ++ "]".toList).length = cols.length := by
    simp [h1, h2]
  rw [frame]
  simp only [if_pos hl]
  generalize ((names.zip units).map fun nu => nu.1 ++ " [".toList ++ nu.2 ++ "]".toList) = ls at hl hnd
  have key : ∀ (l : List (Str × List α)) (seen : List Str), (l.map Prod.fst).Nodup → (∀ n ∈ seen, n ∉ l.map Prod.fst) →
      dropDup seen l = l := by
    intro l
    induction l with
    | nil => intros; rfl
    | cons x l ih =>
      intro seen hn hs
      obtain ⟨n, c⟩ := x
      rw [List.map_cons, List.nodup_cons] at hn
      have : n ∉ seen := fun hm => hs n hm (by simp)
      rw [dropDup, if_neg this, ih (n :: seen) hn.2]
      intro m hm hml
      rcases List.mem_cons.1 hm with rfl | hm
      · exact hn.1 hml
      · exact hs m hm (by rw [List.map_cons]; exact List.mem_cons_of_mem _ hml)
  rw [key _ _ (by rw [List.map_fst_zip (by omega)]; exact hnd) (by simp)]

example : frame ["a".toList, "b".toList] ["m".toList, "m".toList] [[1, 2], [3, 4]] =
    .ok [("a [m]".toList, [1, 2]), ("b [m]".toList, [3, 4])] := by decide +kernel

/-! ## C40: merging result files -/

/-- a toy time base in tenths -/
def timeEx (k dt t0 : Nat) : Nat := k * dt + t0

def infoEx (n : Nat) (cat c : String) (v : List Nat) : Info Nat := ⟨n, cat.toList, some 0, some 1, [⟨c.toList, "m".toList, v⟩]⟩

/-- C40 fails: two files of one length and a third of another: only the merged set is
kept, the data of the third file are lost -/
theorem C40_fails : readSets timeEx true [.ok (infoEx 2 "A" "x" [1, 2]), .ok (infoEx 2 "B" "y" [3, 4]), .ok (infoEx 3 "C" "z" [5, 6, 7])] =
    .ok [("Misc".toList, ⟨"Misc_2".toList, [⟨"Time".toList, "s".toList, [0, 1]⟩, ⟨"x".toList, "m".toList, [1, 2]⟩,
      ⟨"y".toList, "m".toList, [3, 4]⟩]⟩)] := by decide +kernel

/-- C40 fails: files of one category and different lengths: the last one replaces the others -/
theorem C40_names_fails : readSets timeEx true [.ok (infoEx 2 "A" "x" [1, 2]), .ok (infoEx 3 "A" "y" [3, 4, 5])] =
    .ok [("A".toList, ⟨"A".toList, [⟨"Time".toList, "s".toList, [0, 1, 2]⟩, ⟨"y".toList, "m".toList, [3, 4, 5]⟩]⟩)] := by
  decide +kernel

/-- C40 fails: the sets of other categories stay, in their places -/
theorem C40_replace_fails : readSets timeEx true [.ok (infoEx 2 "A" "x" [1, 2]), .ok (infoEx 3 "B" "y" [3, 4, 5]),
      .ok (infoEx 4 "A" "z" [6, 7, 8, 9])] =
    .ok [("A".toList, ⟨"A".toList, [⟨"Time".toList, "s".toList, [0, 1, 2, 3]⟩, ⟨"z".toList, "m".toList, [6, 7, 8, 9]⟩]⟩),
      ("B".toList, ⟨"B".toList, [⟨"Time".toList, "s".toList, [0, 1, 2]⟩, ⟨"y".toList, "m".toList, [3, 4, 5]⟩]⟩)] := by
  decide +kernel

/-- C40 fails: a file whose data cannot be read is left out without an error -/
theorem C40_skip_fails : readSets timeEx true [.ok (infoEx 2 "A" "x" [1, 2]), .value] =
    .ok [("A".toList, ⟨"A".toList, [⟨"Time".toList, "s".toList, [0, 1]⟩, ⟨"x".toList, "m".toList, [1, 2]⟩]⟩)] := by
  decide +kernel

theorem mergeLoop_skip (time : Nat → α → α → α) (timeOnly : Bool) (a b : List (Res α)) (x : Res α) (hx : x = .missing ∨ x = .value) :
    ∀ ds, mergeLoop time false timeOnly (a ++ x :: b) ds = mergeLoop time false timeOnly (a ++ b) ds := by
  induction a with
  | nil => intro ds; rcases hx with rfl | rfl <;> simp [mergeLoop]
  | cons y a ih =>
    intro ds
    cases y with
    | missing => simp [mergeLoop, ih]
    | value => simp [mergeLoop, ih]
    | other => simp [mergeLoop]
    | ok i =>
      simp only [List.cons_append, mergeLoop, ih]

/-- **C40**, files that cannot be read: alone they are an error of their kind, as is having no
file; among at least two others they make no difference at all; an error of any other kind is
raised when nothing before it raised. -/
theorem C40_unread (time : Nat → α → α → α) (pj : Bool) (a b : List (Res α)) :
    readSets time pj [.missing] = .error .notFound ∧ readSets time pj [.value] = .error .value ∧
    readSets time pj ([] : List (Res α)) = .error .notFound ∧ readSets time pj [.other] = .error .broken ∧
    (2 ≤ a.length + b.length → ∀ x, x = .missing ∨ x = .value → readSets time pj (a ++ x :: b) = readSets time pj (a ++ b)) := by
  refine ⟨rfl, rfl, rfl, rfl, fun h x hx => ?_⟩
  rw [readSets, readSets]
  · have h1 : decide ((a ++ x :: b).length = 1) = false := by simp; omega
    have h2 : decide ((a ++ b).length = 1) = false := by simp; omega
    have h3 : decide ((a ++ x :: b).length ≠ 1) = true := by simp; omega
    have h4 : decide ((a ++ b).length ≠ 1) = true := by simp; omega
    rw [h1, h2, h3, h4, mergeLoop_skip _ _ _ _ _ hx]
  · intro e; have := congrArg List.length e; rw [List.length_append, List.length_nil] at this; omega
  · intro e; have := congrArg List.length e; simp at this

example : 2 ≤ [Res.ok (infoEx 2 "A" "x" [1, 2])].length + [Res.ok (infoEx 2 "B" "y" [1, 2])].length := by decide

/-- files with the number of samples `k` -/
private def ofLen (L : List (Info α)) (k : Nat) : List (Info α) := L.filter (fun i => i.nMajor = k)

/-- what holds for the data sets after the files `L` -/
private structure Inv (time : Nat → α → α → α) (L : List (Info α)) (ds : List (Nat × DSet α)) : Prop where
  keys : (ds.map Prod.fst).Nodup
  has : ∀ i ∈ L, ∃ d, (i.nMajor, d) ∈ ds ∧ i.cols <:+: d.cols
  name : ∀ kd ∈ ds, (∃ i ∈ L, ofLen L kd.1 = [i] ∧ kd.2.name = i.category) ∨
    (2 ≤ (ofLen L kd.1).length ∧ kd.2.name = "Misc_".toList ++ natStr kd.1)
  first : ∀ kd ∈ ds, ∃ i ∈ L, i.nMajor = kd.1 ∧ ∃ cs, firstCols time i = .ok cs ∧ cs <+: kd.2.cols

private theorem addInfo_new (time : Nat → α → α → α) (i : Info α) (cs : List (Column α)) (hcs : firstCols time i = .ok cs) :
    ∀ ds : List (Nat × DSet α), i.nMajor ∉ ds.map Prod.fst → addInfo time i ds = .ok (ds ++ [(i.nMajor, ⟨i.category, cs⟩)])
  | [], _ => by rw [addInfo, hcs]; rfl
  | (k, d) :: r, h => by
    rw [List.map_cons, List.mem_cons, not_or] at h
    rw [addInfo, if_neg (fun e => h.1 e.symm), addInfo_new time i cs hcs r h.2]
    rfl

private theorem addInfo_old (time : Nat → α → α → α) (i : Info α) :
    ∀ ds : List (Nat × DSet α), i.nMajor ∈ ds.map Prod.fst → (ds.map Prod.fst).Nodup →
      ∃ pre d post, ds = pre ++ (i.nMajor, d) :: post ∧
        addInfo time i ds = .ok (pre ++ (i.nMajor, ⟨"Misc_".toList ++ natStr i.nMajor, d.cols ++ i.cols⟩) :: post)
  | [], h, _ => by simp at h
  | (k, d) :: r, h, hn => by
    by_cases hk : k = i.nMajor
    · subst hk
      exact ⟨[], d, r, rfl, by rw [addInfo, if_pos rfl]; rfl⟩
    · rw [List.map_cons, List.mem_cons] at h
      rw [List.map_cons, List.nodup_cons] at hn
      have h' : i.nMajor ∈ r.map Prod.fst := h.resolve_left (fun e => hk e.symm)
      obtain ⟨pre, d', post, h1, h2⟩ := addInfo_old time i r h' hn.2
      exact ⟨(k, d) :: pre, d', post, by rw [h1]; rfl, by rw [addInfo, if_neg hk, h2]; rfl⟩

private theorem ofLen_append (L : List (Info α)) (i : Info α) (k : Nat) :
    ofLen (L ++ [i]) k = ofLen L k ++ (if i.nMajor = k then [i] else []) := by
  rw [ofLen, List.filter_append]
  by_cases h : i.nMajor = k <;> simp [ofLen, h]

private theorem inv_step (time : Nat → α → α → α) (i : Info α) (hi : i.step.isSome → i.start.isSome) (L : List (Info α))
    (ds : List (Nat × DSet α)) (h : Inv time L ds) : ∃ ds', addInfo time i ds = .ok ds' ∧ Inv time (L ++ [i]) ds' := by
  obtain ⟨cs, hcs, hsuf⟩ : ∃ cs, firstCols time i = .ok cs ∧ i.cols <:+: cs := by
    cases hst : i.step with
    | none => exact ⟨i.cols, by rw [firstCols, hst], List.infix_refl _⟩
    | some dt =>
      cases hsr : i.start with
      | none => rw [hst, hsr] at hi; simp at hi
      | some t0 =>
        exact ⟨timeCol time i.nMajor dt t0 :: i.cols, by rw [firstCols, hst, hsr], ⟨[timeCol time i.nMajor dt t0], [], by simp⟩⟩
  by_cases hk : i.nMajor ∈ ds.map Prod.fst
  · obtain ⟨pre, d, post, h1, h2⟩ := addInfo_old time i ds hk h.keys
    refine ⟨_, h2, ?_⟩
    have hother : ∀ kd ∈ pre ++ post, kd.1 ≠ i.nMajor := by
      intro kd hkd hkk
      have hn := h.keys
      rw [h1, List.map_append, List.map_cons, List.nodup_middle, List.nodup_cons, ← List.map_append] at hn
      exact hn.1 (by show i.nMajor ∈ _; rw [← hkk]; exact List.mem_map_of_mem hkd)
    have hmem : ∀ kd, kd ∈ pre ++ post → kd ∈ ds := by
      intro kd hkd
      rw [h1]
      rcases List.mem_append.1 hkd with h | h
      · exact List.mem_append_left _ h
      · exact List.mem_append_right _ (List.mem_cons_of_mem _ h)
    refine ⟨?_, ?_, ?_, ?_⟩
    · have := h.keys
      rw [h1] at this
      simpa using this
    · intro j hj
      rcases List.mem_append.1 hj with hj | hj
      · obtain ⟨d', hd', hinf⟩ := h.has j hj
        by_cases hjk : j.nMajor = i.nMajor
        · refine ⟨⟨"Misc_".toList ++ natStr i.nMajor, d.cols ++ i.cols⟩, by rw [hjk]; simp, ?_⟩
          have hdd : d' = d := by
            rw [hjk, h1] at hd'
            rcases List.mem_append.1 hd' with hm | hm
            · exact absurd rfl (hother _ (List.mem_append_left _ hm))
            · rcases List.mem_cons.1 hm with hm | hm
              · exact (Prod.mk.inj hm).2
              · exact absurd rfl (hother _ (List.mem_append_right _ hm))
          subst hdd
          exact hinf.trans (List.prefix_append _ _).isInfix
        · refine ⟨d', ?_, hinf⟩
          rw [h1] at hd'
          rcases List.mem_append.1 hd' with hm | hm
          · exact List.mem_append_left _ hm
          · rcases List.mem_cons.1 hm with hm | hm
            · exact absurd (Prod.mk.inj hm).1 hjk
            · exact List.mem_append_right _ (List.mem_cons_of_mem _ hm)
      · rw [List.mem_singleton] at hj
        subst hj
        exact ⟨_, List.mem_append_right _ List.mem_cons_self, (List.suffix_append _ _).isInfix⟩
    · intro kd hkd
      have hcase : kd = (i.nMajor, ⟨"Misc_".toList ++ natStr i.nMajor, d.cols ++ i.cols⟩) ∨ kd ∈ pre ++ post := by
        rcases List.mem_append.1 hkd with hm | hm
        · exact .inr (List.mem_append_left _ hm)
        · rcases List.mem_cons.1 hm with hm | hm
          · exact .inl hm
          · exact .inr (List.mem_append_right _ hm)
      rcases hcase with rfl | hm
      · right
        refine ⟨?_, rfl⟩
        rw [ofLen_append, if_pos rfl, List.length_append]
        have hd : (i.nMajor, d) ∈ ds := by rw [h1]; simp
        rcases h.name _ hd with ⟨j, _, hj, _⟩ | ⟨hj, _⟩
        · simp only at hj; rw [hj]; simp
        · simp only at hj; simp; omega
      · have hne := hother kd hm
        rw [ofLen_append, if_neg (fun e => hne e.symm), List.append_nil]
        rcases h.name kd (hmem kd hm) with ⟨j, hj, h3, h4⟩ | h3
        · exact .inl ⟨j, List.mem_append_left _ hj, h3, h4⟩
        · exact .inr h3
    · intro kd hkd
      have hcase : kd = (i.nMajor, ⟨"Misc_".toList ++ natStr i.nMajor, d.cols ++ i.cols⟩) ∨ kd ∈ pre ++ post := by
        rcases List.mem_append.1 hkd with hm | hm
        · exact .inr (List.mem_append_left _ hm)
        · rcases List.mem_cons.1 hm with hm | hm
          · exact .inl hm
          · exact .inr (List.mem_append_right _ hm)
      rcases hcase with rfl | hm
      · have hd : (i.nMajor, d) ∈ ds := by rw [h1]; simp
        obtain ⟨j, hj, h3, cs', h4, h5⟩ := h.first _ hd
        exact ⟨j, List.mem_append_left _ hj, h3, cs', h4, h5.trans (List.prefix_append _ _)⟩
      · obtain ⟨j, hj, h3, cs', h4, h5⟩ := h.first kd (hmem kd hm)
        exact ⟨j, List.mem_append_left _ hj, h3, cs', h4, h5⟩
  · refine ⟨_, addInfo_new time i cs hcs ds hk, ?_⟩
    have hnone : ofLen L i.nMajor = [] := by
      rw [ofLen, List.filter_eq_nil_iff]
      intro j hj hjk
      obtain ⟨d, hd, _⟩ := h.has j hj
      exact hk (of_decide_eq_true hjk ▸ List.mem_map_of_mem (f := Prod.fst) hd)
    refine ⟨?_, ?_, ?_, ?_⟩
    · rw [List.map_append, List.nodup_append]
      refine ⟨h.keys, by simp, ?_⟩
      intro a ha b hb
      simp only [List.map_cons, List.map_nil, List.mem_singleton] at hb
      subst hb
      intro e
      subst e
      exact hk ha
    · intro j hj
      rcases List.mem_append.1 hj with hj | hj
      · obtain ⟨d, hd, hinf⟩ := h.has j hj
        exact ⟨d, List.mem_append_left _ hd, hinf⟩
      · rw [List.mem_singleton] at hj
        subst hj
        exact ⟨_, List.mem_append_right _ (List.mem_singleton.2 rfl), hsuf⟩
    · intro kd hkd
      rcases List.mem_append.1 hkd with hm | hm
      · have hne : kd.1 ≠ i.nMajor := fun e => hk (e ▸ List.mem_map_of_mem hm)
        rw [ofLen_append, if_neg (fun e => hne e.symm), List.append_nil]
        rcases h.name kd hm with ⟨j, hj, h3, h4⟩ | h3
        · exact .inl ⟨j, List.mem_append_left _ hj, h3, h4⟩
        · exact .inr h3
      · rw [List.mem_singleton] at hm
        subst hm
        left
        refine ⟨i, by simp, ?_, rfl⟩
        rw [ofLen_append, if_pos rfl, hnone, List.nil_append]
    · intro kd hkd
      rcases List.mem_append.1 hkd with hm | hm
      · obtain ⟨j, hj, h3, cs', h4, h5⟩ := h.first kd hm
        exact ⟨j, List.mem_append_left _ hj, h3, cs', h4, h5⟩
      · rw [List.mem_singleton] at hm
        subst hm
        exact ⟨i, by simp, rfl, cs, hcs, List.prefix_refl _⟩

/-- a file that is read: it has rows, a start if it has a step, and a step if the whole
project is read -/
def Readable (pj : Bool) (i : Info α) : Prop :=
  0 < i.nMajor ∧ (i.step.isSome → i.start.isSome) ∧ (pj = true → i.step.isSome)

private theorem loop_inv (time : Nat → α → α → α) (only timeOnly : Bool) : ∀ (infos L : List (Info α)) (ds : List (Nat × DSet α)),
    (∀ i ∈ infos, Readable timeOnly i) → Inv time L ds →
    ∃ ds', mergeLoop time only timeOnly (infos.map Res.ok) ds = .ok ds' ∧ Inv time (L ++ infos) ds'
  | [], L, ds, _, h => ⟨ds, rfl, by rw [List.append_nil]; exact h⟩
  | i :: infos, L, ds, hr, h => by
    obtain ⟨h1, h2, h3⟩ := hr i List.mem_cons_self
    obtain ⟨ds1, ha, hi⟩ := inv_step time i h2 L ds h
    obtain ⟨ds2, hb, hi2⟩ := loop_inv time only timeOnly infos (L ++ [i]) ds1 (fun j hj => hr j (List.mem_cons_of_mem _ hj)) hi
    refine ⟨ds2, ?_, by rw [List.append_assoc] at hi2; exact hi2⟩
    have hskip : (timeOnly && i.step.isNone) = false := by
      cases timeOnly with
      | false => rfl
      | true =>
        have := h3 rfl
        cases hs : i.step with
        | none => rw [hs] at this; simp at this
        | some _ => rfl
    rw [List.map_cons, mergeLoop, hskip, if_neg (by simp), if_neg (by omega), ha]
    exact hb

private theorem inv_nil (time : Nat → α → α → α) : Inv time ([] : List (Info α)) [] :=
  ⟨List.nodup_nil, by simp, by simp, by simp⟩

private theorem insertName_new (n : Str) (d : DSet α) : ∀ acc : List (Str × DSet α), n ∉ acc.map Prod.fst →
    insertName n d acc = acc ++ [(n, d)]
  | [], _ => rfl
  | (n', d') :: r, h => by
    rw [List.map_cons, List.mem_cons, not_or] at h
    rw [insertName, if_neg (fun e => h.1 e.symm), insertName_new n d r h.2]
    rfl

private theorem fold_insert : ∀ (ds : List (Nat × DSet α)) (acc : List (Str × DSet α)),
    (acc.map Prod.fst ++ ds.map (fun kd => kd.2.name)).Nodup →
    ds.foldl (fun acc kd => insertName kd.2.name kd.2 acc) acc = acc ++ ds.map (fun kd => (kd.2.name, kd.2))
  | [], acc, _ => by simp
  | kd :: ds, acc, h => by
    rw [List.map_cons] at h
    have hn : kd.2.name ∉ acc.map Prod.fst := by
      intro hm
      rw [List.nodup_append] at h
      exact h.2.2 _ hm _ List.mem_cons_self rfl
    rw [List.foldl_cons, insertName_new _ _ _ hn, fold_insert ds]
    · simp
    · rw [List.map_append, List.append_assoc]; exact h

theorem natStr_inj {a b : Nat} (h : natStr a = natStr b) : a = b := by
  rw [natStr, natStr, Nat.toList_repr, Nat.toList_repr] at h
  have := congrArg (fun l => Nat.ofDigitChars 10 l 0) h
  simpa using this

/-- how many of the files have `k` samples -/
def numLen (infos : List (Info α)) (k : Nat) : Nat := (infos.filter (fun i => i.nMajor = k)).length

/-- **C40**, for readable files such that
* files alone of their length have different categories, which do not begin with `Misc_`;
* either all files have one length, or the number of lengths shared by several files is
  not one (none is shared, or two different ones are):
the columns of each file are found, in their order, in one data set. (Missing for the full property: the cases of
`C40_fails`, `C40_names_fails`, `C40_skip_fails`.) -/
theorem C40_partial (time : Nat → α → α → α) (pj : Bool) (infos : List (Info α)) (hne : infos ≠ [])
    (hr : ∀ i ∈ infos, Readable pj i)
    (hcat : ∀ i ∈ infos, numLen infos i.nMajor = 1 → ¬ "Misc_".toList <+: i.category ∧
      ∀ j ∈ infos, numLen infos j.nMajor = 1 → i.category = j.category → i.nMajor = j.nMajor)
    (hmisc : (∀ i ∈ infos, ∀ j ∈ infos, i.nMajor = j.nMajor) ∨ (∀ i ∈ infos, numLen infos i.nMajor = 1) ∨
      ∃ i ∈ infos, ∃ j ∈ infos, i.nMajor ≠ j.nMajor ∧ 2 ≤ numLen infos i.nMajor ∧ 2 ≤ numLen infos j.nMajor) :
    ∃ sets, readSets time pj (infos.map Res.ok) = .ok sets ∧ ∀ i ∈ infos, ∃ nd ∈ sets, i.cols <:+: nd.2.cols := by
  obtain ⟨ds, hds, inv⟩ := loop_inv time ((infos.map Res.ok).length = 1) (pj && (infos.map Res.ok).length ≠ 1) infos [] []
    (fun i hi => ⟨(hr i hi).1, (hr i hi).2.1, fun h => (hr i hi).2.2 (by
      rw [Bool.and_eq_true] at h; exact h.1)⟩) (inv_nil time)
  rw [List.nil_append] at inv
  refine ⟨nameSets ds, ?_, ?_⟩
  · rw [readSets]
    · rw [hds]
    · simpa using hne
  have hp : ∀ kd ∈ ds, "Misc_".toList.isPrefixOf kd.2.name = true ↔ 2 ≤ numLen infos kd.1 := by
    intro kd hkd
    rw [List.isPrefixOf_iff_prefix]
    rcases inv.name kd hkd with ⟨i, hi, h1, h2⟩ | ⟨h1, h2⟩
    · have hk : i.nMajor = kd.1 := by
        have : i ∈ ofLen infos kd.1 := by rw [h1]; simp
        exact of_decide_eq_true (List.mem_filter.1 this).2
      have hlen : numLen infos kd.1 = 1 := by
        show (ofLen infos kd.1).length = 1
        rw [h1]; rfl
      rw [hlen, h2]
      constructor
      · intro hpre; exact absurd hpre (hcat i hi (by rw [hk]; exact hlen)).1
      · intro h; omega
    · rw [h2]
      exact ⟨fun _ => h1, fun _ => List.prefix_append _ _⟩
  -- names are distinct
  have hnames : (ds.map (fun kd => kd.2.name)).Nodup := by
    have hpw : ∀ a ∈ ds, ∀ b ∈ ds, a.2.name = b.2.name → a.1 = b.1 := by
      intro a ha b hb hab
      rcases inv.name a ha with ⟨i, hi, h1, h2⟩ | ⟨h1, h2⟩ <;> rcases inv.name b hb with ⟨j, hj, h3, h4⟩ | ⟨h3, h4⟩
      · have hk : i.nMajor = a.1 := by
          have : i ∈ ofLen infos a.1 := by rw [h1]; simp
          exact of_decide_eq_true (List.mem_filter.1 this).2
        have hk' : j.nMajor = b.1 := by
          have : j ∈ ofLen infos b.1 := by rw [h3]; simp
          exact of_decide_eq_true (List.mem_filter.1 this).2
        have l1 : numLen infos i.nMajor = 1 := by
          show (ofLen infos i.nMajor).length = 1
          rw [hk, h1]; rfl
        have l2 : numLen infos j.nMajor = 1 := by
          show (ofLen infos j.nMajor).length = 1
          rw [hk', h3]; rfl
        rw [← hk, ← hk']
        exact (hcat i hi l1).2 j hj l2 (by rw [← h2, ← h4]; exact hab)
      · exfalso
        have e1 := (hp b hb).2 h3
        rw [← hab] at e1
        have e2 := (hp a ha).1 e1
        have : numLen infos a.1 = 1 := by
          show (ofLen infos a.1).length = 1
          rw [h1]; rfl
        omega
      · exfalso
        have e1 := (hp a ha).2 h1
        rw [hab] at e1
        have e2 := (hp b hb).1 e1
        have : numLen infos b.1 = 1 := by
          show (ofLen infos b.1).length = 1
          rw [h3]; rfl
        omega
      · rw [h2, h4] at hab
        exact natStr_inj (List.append_cancel_left hab)
    have hk := inv.keys
    have hall : ∀ l : List (Nat × DSet α), (∀ a ∈ l, a ∈ ds) → (l.map Prod.fst).Nodup → (l.map (fun kd => kd.2.name)).Nodup := by
      intro l
      induction l with
      | nil => intros; exact List.nodup_nil
      | cons a l ih =>
        intro hsub hnd
        rw [List.map_cons, List.nodup_cons] at hnd ⊢
        refine ⟨?_, ih (fun x hx => hsub x (List.mem_cons_of_mem _ hx)) hnd.2⟩
        intro hm
        obtain ⟨b, hb, hbe⟩ := List.mem_map.1 hm
        have := hpw b (hsub b (List.mem_cons_of_mem _ hb)) a (hsub a List.mem_cons_self) hbe
        exact hnd.1 (this ▸ List.mem_map_of_mem hb)
    exact hall ds (fun a h => h) hk
  have hfold : ds.foldl (fun acc kd => insertName kd.2.name kd.2 acc) [] = ds.map (fun kd => (kd.2.name, kd.2)) := by
    have := fold_insert ds [] (by simpa using hnames)
    simpa using this
  have hgen : ∀ i ∈ infos, ∃ nd ∈ ds.map (fun kd => (kd.2.name, kd.2)), i.cols <:+: nd.2.cols := by
    intro i hi
    obtain ⟨d, hd, hinf⟩ := inv.has i hi
    exact ⟨(d.name, d), List.mem_map.2 ⟨_, hd, rfl⟩, hinf⟩
  -- the sets whose name begins with `Misc_`
  by_cases hone : ∃ kd, ds.filter (fun kd => "Misc_".toList.isPrefixOf kd.2.name) = [kd]
  · obtain ⟨kd, hkd⟩ := hone
    have hset : nameSets ds = [("Misc".toList, kd.2)] := by rw [nameSets, hkd]
    have hkm : kd ∈ ds.filter (fun kd => "Misc_".toList.isPrefixOf kd.2.name) := by rw [hkd]; simp
    have hkm2 := List.mem_filter.1 hkm
    have h2len := (hp kd hkm2.1).1 hkm2.2
    have huniq : ∀ b ∈ ds, 2 ≤ numLen infos b.1 → b = kd := by
      intro b hb hb2
      have : b ∈ ds.filter (fun kd => "Misc_".toList.isPrefixOf kd.2.name) := List.mem_filter.2 ⟨hb, (hp b hb).2 hb2⟩
      rw [hkd] at this
      exact List.mem_singleton.1 this
    have hall : ∀ i ∈ infos, ∀ j ∈ infos, i.nMajor = j.nMajor := by
      rcases hmisc with h | h | ⟨i, hi, j, hj, hij, h1, h2⟩
      · exact h
      · exfalso
        obtain ⟨j, hj, hjk, -⟩ := inv.first kd hkm2.1
        have := h j hj
        rw [hjk] at this
        omega
      · exfalso
        obtain ⟨d1, hd1, _⟩ := inv.has i hi
        obtain ⟨d2, hd2, _⟩ := inv.has j hj
        have e1 := huniq _ hd1 h1
        have e2 := huniq _ hd2 h2
        apply hij
        rw [← e2] at e1
        exact (Prod.mk.inj e1).1
    intro i hi
    obtain ⟨d, hd, hinf⟩ := inv.has i hi
    have hd2 : 2 ≤ numLen infos i.nMajor := by
      obtain ⟨j, hj, hjk, -⟩ := inv.first kd hkm2.1
      rw [hall i hi j hj, hjk]; exact h2len
    have := huniq _ hd hd2
    refine ⟨("Misc".toList, kd.2), by rw [hset]; simp, ?_⟩
    rw [← this]; exact hinf
  · have hset : nameSets ds = ds.map (fun kd => (kd.2.name, kd.2)) := by
      rw [nameSets]
      split
      · next kd heq => exact absurd ⟨kd, heq⟩ hone
      · exact hfold
    rw [hset]
    exact hgen

/-- two pairs of files of two lengths, and a single file -/
def filesEx : List (Info Nat) :=
  [infoEx 2 "A" "x" [1, 2], infoEx 3 "A" "y" [3, 4, 5], infoEx 2 "B" "z" [6, 7], infoEx 3 "C" "u" [8, 9, 10], infoEx 1 "D" "v" [11]]

example : (∀ i ∈ filesEx, Readable true i) ∧
    (∀ i ∈ filesEx, numLen filesEx i.nMajor = 1 → ¬ "Misc_".toList <+: i.category ∧
      ∀ j ∈ filesEx, numLen filesEx j.nMajor = 1 → i.category = j.category → i.nMajor = j.nMajor) ∧
    (∃ i ∈ filesEx, ∃ j ∈ filesEx, i.nMajor ≠ j.nMajor ∧ 2 ≤ numLen filesEx i.nMajor ∧ 2 ≤ numLen filesEx j.nMajor) := by
  simp only [Readable]
  decide +kernel

/-! ## C62: time base -/

/-- C62 fails: files of the same number of samples are merged under the time of the first
one even when their steps differ -/
theorem C62_fails : readSets timeEx true [.ok ⟨2, "A".toList, some 0, some 1, [⟨"x".toList, "m".toList, [1, 2]⟩]⟩,
      .ok ⟨2, "B".toList, some 0, some 5, [⟨"y".toList, "m".toList, [3, 4]⟩]⟩] =
    .ok [("Misc".toList, ⟨"Misc_2".toList, [⟨"Time".toList, "s".toList, [0, 1]⟩, ⟨"x".toList, "m".toList, [1, 2]⟩,
      ⟨"y".toList, "m".toList, [3, 4]⟩]⟩)] := by decide +kernel

/-- **C62** when files of equal length have the same start and step: each file's columns
are in a data set whose first column is the time of that file. (Missing for the full
property: different steps, see `C62_fails`.) Under the hypotheses of C40 for the rest. -/
theorem C62_partial (time : Nat → α → α → α) (infos : List (Info α)) (hne : infos ≠ []) (n : Nat) (t0 dt : α)
    (hn : 0 < n) (h : ∀ i ∈ infos, i.nMajor = n ∧ i.start = some t0 ∧ i.step = some dt) (h2 : 2 ≤ infos.length) :
    ∃ d, readSets time true (infos.map Res.ok) = .ok [("Misc".toList, d)] ∧
      d.cols.head? = some (timeCol time n dt t0) ∧ ∀ i ∈ infos, i.cols <:+: d.cols := by
  have hr : ∀ i ∈ infos, Readable true i := by
    intro i hi
    obtain ⟨a, b, c⟩ := h i hi
    exact ⟨by omega, by simp [b], by simp [c]⟩
  obtain ⟨ds, hds, inv⟩ := loop_inv time ((infos.map Res.ok).length = 1) (true && (infos.map Res.ok).length ≠ 1) infos [] []
    (fun i hi => ⟨(hr i hi).1, (hr i hi).2.1, fun _ => (hr i hi).2.2 rfl⟩) (inv_nil time)
  rw [List.nil_append] at inv
  have hlen : numLen infos n = infos.length := by
    rw [numLen, List.filter_eq_self.2]
    intro i hi; simp [(h i hi).1]
  have hkey : ∀ kd ∈ ds, kd.1 = n := by
    intro kd hkd
    obtain ⟨i, hi, hk, -⟩ := inv.first kd hkd
    rw [← hk, (h i hi).1]
  obtain ⟨i0, r0, rfl⟩ := List.exists_cons_of_ne_nil hne
  obtain ⟨d, hd, -⟩ := inv.has i0 List.mem_cons_self
  rw [(h i0 List.mem_cons_self).1] at hd
  have hsingle : ds = [(n, d)] := by
    have hk := inv.keys
    cases ds with
    | nil => simp at hd
    | cons a l =>
      cases l with
      | nil => rw [List.mem_singleton] at hd; rw [← hd]
      | cons b l =>
        exfalso
        have e1 := hkey a (by simp)
        have e2 := hkey b (by simp)
        rw [List.map_cons, List.map_cons, e1, e2] at hk
        simp at hk
  subst hsingle
  have hmisc : d.name = "Misc_".toList ++ natStr n := by
    rcases inv.name (n, d) (by simp) with ⟨i, hi, h1, _⟩ | ⟨_, h3⟩
    · exfalso
      have : numLen (i0 :: r0) n = 1 := by
        show (ofLen (i0 :: r0) n).length = 1
        simp only at h1
        rw [h1]; rfl
      omega
    · exact h3
  refine ⟨d, ?_, ?_, ?_⟩
  · rw [readSets]
    · rw [hds]
      have : "Misc_".toList.isPrefixOf d.name = true := by
        rw [List.isPrefixOf_iff_prefix, hmisc]; exact List.prefix_append _ _
      simp only [nameSets, List.filter_cons, this, if_true, List.filter_nil]
    · simp
  · obtain ⟨i, hi, _, cs, hcs, hpre⟩ := inv.first (n, d) (by simp)
    obtain ⟨h1, h3, h4⟩ := h i hi
    rw [firstCols, h4, h3] at hcs
    injection hcs with hcs
    subst hcs
    obtain ⟨t, ht⟩ := hpre
    rw [← ht, h1]; rfl
  · intro i hi
    obtain ⟨d', hd', hinf⟩ := inv.has i hi
    rw [List.mem_singleton] at hd'
    rw [(Prod.mk.inj hd').2] at hinf
    exact hinf

example : ∀ i ∈ [infoEx 2 "A" "x" [1, 2], infoEx 2 "B" "y" [3, 4]], i.nMajor = 2 ∧ i.start = some 0 ∧ i.step = some 1 := by
  decide

end Verif.Bladed
