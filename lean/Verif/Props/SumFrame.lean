import Verif.Lemmas.SumFrame
import Verif.Props.Summary
import Verif.Lemmas.Str
import Verif.Lemmas.FastLine
/-!
# The table of a SubDyn summary file

Property C220.
-/
namespace Verif.Summary
open Verif.Py

/-- **C220** the table of a SubDyn summary file: its labels are distinct; each row belongs to one node, the same one for the positions, the Guyan
modes and the Craig-Bampton modes; the columns `z`, `x`, `y` have the positions of the nodes, and the columns of the modes say the displacements -/
theorem C220_table (E : Env) (self data : Data) (df : List Column) (h : toDataFrame E self data = .ok df) :
    ∃ m, getModes E self data none (some 2) = .ok m ∧ (df.map Prod.fst).Nodup ∧ m.gy.inodes = m.cb.inodes ∧ m.gy.pos = m.cb.pos ∧
      (∀ c ∈ df, c.2.length = m.gy.inodes.length) ∧
      df.lookup "z_[m]".toList = some (m.gy.pos.map fun p => p.map fun q => q.2.2) ∧
      df.lookup "x_[m]".toList = some (m.gy.pos.map fun p => p.map fun q => q.1) ∧
      df.lookup "y_[m]".toList = some (m.gy.pos.map fun p => p.map fun q => q.2.1) ∧
      Says df m.gy data.nR "Guyan" ∧ Says df m.cb data.nCB "CB" := by
  obtain ⟨m, hm, rfl⟩ := frame_eq E self data df h
  obtain ⟨e1, e2, e3, e4, e5⟩ := getModes_same E self data _ _ m hm
  have hn := frame_nodup m.gy m.cb data.nR data.nCB
  have hzmem : ∀ c ∈ zxy m.gy, c ∈ zxy m.gy ++ (cols m.gy data.nR "GuyanMode" totCol ++ (cols m.cb data.nCB "CBMode" totCol ++
        (cols m.gy data.nR "GuyanDisp" dispCol ++ cols m.cb data.nCB "CBDisp" dispCol))) := fun c hc => List.mem_append_left _ hc
  have hznot : ∀ pre ∈ pres, ∀ s k, label pre s k ∉ (zxy m.gy).map Prod.fst := by
    intro pre hp s k hc
    simp only [zxy, List.map_cons, List.map_nil, List.mem_cons, List.not_mem_nil, or_false] at hc
    rcases hc with hc | hc | hc
    · exact label_ne _ hp s k 'z' (by decide) hc
    · exact label_ne _ hp s k 'x' (by decide) hc
    · exact label_ne _ hp s k 'y' (by decide) hc
  refine ⟨m, hm, hn, e1, e2, ?_, ?_, ?_, ?_, ?_, ?_⟩
  · intro c hc
    rw [← e3]
    simp only [List.mem_append, cols, zxy, List.mem_map, List.mem_cons, List.not_mem_nil, or_false] at hc
    rcases hc with hc | ⟨p, -, rfl⟩ | ⟨p, -, rfl⟩ | ⟨p, -, rfl⟩ | ⟨p, -, rfl⟩
    · rcases hc with rfl | rfl | rfl <;> simp
    all_goals simp [totCol, dispCol, e2]
  · exact lookup_mem hn ("z_[m]".toList, _) (hzmem _ List.mem_cons_self)
  · exact lookup_mem hn ("x_[m]".toList, _) (hzmem _ (List.mem_cons_of_mem _ List.mem_cons_self))
  · exact lookup_mem hn ("y_[m]".toList, _) (hzmem _ (List.mem_cons_of_mem _ (List.mem_cons_of_mem _ List.mem_cons_self)))
  · refine says_of _ hn _ _ _ (by rw [e3, e4]) e3 ?_ ?_ ?_
    · intro c hc
      exact List.mem_append_right _ (List.mem_append_left _ hc)
    · intro c hc
      exact List.mem_append_right _ (List.mem_append_right _ (List.mem_append_right _ (List.mem_append_left _ hc)))
    · intro s k hk hmv
      simp only [List.map_append, List.mem_append, not_or]
      exact ⟨⟨hznot _ (by decide) s k, absent _ _ _ _ (by decide) (by decide) _ s k hk (fun _ => hmv), absent _ _ _ _ (by decide) (by decide) _ s k hk (fun e => absurd e (by decide)),
          absent _ _ _ _ (by decide) (by decide) _ s k hk (fun _ => hmv), absent _ _ _ _ (by decide) (by decide) _ s k hk (fun e => absurd e (by decide))⟩,
        ⟨hznot _ (by decide) s k, absent _ _ _ _ (by decide) (by decide) _ s k hk (fun _ => hmv), absent _ _ _ _ (by decide) (by decide) _ s k hk (fun e => absurd e (by decide)),
          absent _ _ _ _ (by decide) (by decide) _ s k hk (fun _ => hmv), absent _ _ _ _ (by decide) (by decide) _ s k hk (fun e => absurd e (by decide))⟩⟩
  · refine says_of _ hn _ _ _ (by rw [← e2, e3, e5]) (by rw [← e2, e3, e1]) ?_ ?_ ?_
    · intro c hc
      exact List.mem_append_right _ (List.mem_append_right _ (List.mem_append_left _ hc))
    · intro c hc
      exact List.mem_append_right _ (List.mem_append_right _ (List.mem_append_right _ (List.mem_append_right _ hc)))
    · intro s k hk hmv
      simp only [List.map_append, List.mem_append, not_or]
      exact ⟨⟨hznot _ (by decide) s k, absent _ _ _ _ (by decide) (by decide) _ s k hk (fun e => absurd e (by decide)), absent _ _ _ _ (by decide) (by decide) _ s k hk (fun _ => hmv),
          absent _ _ _ _ (by decide) (by decide) _ s k hk (fun e => absurd e (by decide)), absent _ _ _ _ (by decide) (by decide) _ s k hk (fun _ => hmv)⟩,
        ⟨hznot _ (by decide) s k, absent _ _ _ _ (by decide) (by decide) _ s k hk (fun e => absurd e (by decide)), absent _ _ _ _ (by decide) (by decide) _ s k hk (fun _ => hmv),
          absent _ _ _ _ (by decide) (by decide) _ s k hk (fun e => absurd e (by decide)), absent _ _ _ _ (by decide) (by decide) _ s k hk (fun _ => hmv)⟩⟩

example : toDataFrame toyEnv (column 10) (column 10) = .ok
    [("z_[m]".toList, [some 0, some 10]), ("x_[m]".toList, [some 0, some 0]), ("y_[m]".toList, [some 0, some 0]),
      ("GuyanMode1x_[m]".toList, [some 1, some 1]), ("CBMode1x_[m]".toList, [some 0, some 1]),
      ("GuyanDisp1x_[m]".toList, [some 1, some 1]), ("CBDisp1x_[m]".toList, [some 0, some 1])] := by
  decide +kernel

end Verif.Summary
