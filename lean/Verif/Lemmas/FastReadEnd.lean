import Verif.Lemmas.FastReadSaved
/-! Progress of the loop of `_read`: each iteration uses up at least one line, for C81. -/
namespace Verif.FastRead
open Verif.Py Verif.FastDict Verif.FastLine Verif.FastTable

/-- the value does not announce a list of zero files -/
def Counts {F : Type} (label : Str) (v : FVal F) : Prop :=
  lower label = "numfoil".toList ∨ lower label = "numaffiles".toList → v ≠ .plain (.scalar (.int 0))

/-- the line does not announce a list of zero files -/
def LineCounts (N : Num) (l : Str) : Prop :=
  ∀ allow e, parseLine N.toPyFloat allow l = .ok e → Counts e.label (.plain e.value : FVal N.F)

/-- invariant of the loop -/
structure Live (N : Num) (s : St N.F) : Prop where
  data : ∀ d ∈ s.data, Counts d.label d.value
  vals : s.vals ⊆ valKinds
  labs : s.labs ⊆ labKinds
  off : s.off = [] ∨ '_' ∈ s.off

/-- the iteration went on with fewer than `m` lines -/
def Progress (N : Num) (m : Nat) (lines : List Str) (r : Except RErr (Turn N.F)) : Prop :=
  r ≠ .error .fuel ∧
  ∀ s i rest, r = .ok (.go s i rest) → Live N s ∧ rest.length < m ∧ ∀ l ∈ rest, l ∈ lines

theorem Progress.error (N : Num) (m : Nat) (lines : List Str) (e : RErr) (h : e ≠ .fuel) :
    Progress N m lines (.error e) :=
  ⟨by simpa using h, fun _ _ _ h => by cases h⟩

theorem Progress.stop (N : Num) (m : Nat) (lines : List Str) (d : List (Item N.F)) :
    Progress N m lines (.ok (.stop d)) :=
  ⟨by simp, fun _ _ _ h => by cases h⟩

theorem ofLine_fuel (e : Err) : RErr.ofLine e ≠ .fuel := by cases e <;> simp [RErr.ofLine]
theorem ofTable_fuel (e : TErr) : RErr.ofTable e ≠ .fuel := by cases e <;> simp [RErr.ofTable]

theorem counts_off {F : Type} (label off : Str) (v : FVal F) (h : Counts label v) (ho : off = [] ∨ '_' ∈ off) :
    Counts (label ++ off) v := by
  rcases ho with rfl | ho
  · simpa using h
  · intro hl
    exfalso
    have hm : '_' ∈ lower (label ++ off) := by
      unfold lower
      exact List.mem_map.2 ⟨'_', by simp [ho], by decide⟩
    rcases hl with hl | hl <;> (rw [hl] at hm; revert hm; decide)

theorem counts_table {F : Type} (label : Str) (v : FVal F) (h : ∀ x, v ≠ .plain x) : Counts label v :=
  fun _ => h _

theorem Live.add {s : St N.F} (hs : Live N s) (d : Item N.F) (hd : Counts d.label d.value) : Live N (s.add d) := by
  refine ⟨?_, hs.vals, hs.labs, hs.off⟩
  intro x hx
  simp only [St.add, List.mem_append, List.mem_singleton] at hx
  rcases hx with hx | rfl
  · exact hs.data x hx
  · exact hd

theorem finish_progress {s : St N.F} (hs : Live N s) (d : Item N.F) (hd : Counts d.label d.value) (n i m : Nat)
    (rest lines : List Str) (hm : rest.length < m) (hsub : ∀ l ∈ rest, l ∈ lines) :
    Progress N m lines (finish n s d i rest) := by
  unfold finish
  extract_lets nC special nW
  split
  · exact .error _ _ _ _ (by simp)
  · split
    · exact .error _ _ _ _ (by simp)
    · split
      · exact .error _ _ _ _ (by simp)
      · refine ⟨by simp, ?_⟩
        intro s' i' rest' h
        cases h
        exact ⟨⟨(hs.add d hd).data, hs.vals, hs.labs, hs.off⟩, hm, hsub⟩

theorem tabLines_fuel (data : List (Item F)) (dim : Dim) (off : Str) : tabLines data dim off ≠ .error .fuel := by
  unfold tabLines
  split
  · simp
  · split <;> simp

theorem readTable_ok (N : Num) (mix : Bool) (lines : List Str) (n h o : Nat) :
    readTable N mix lines n h o ≠ .error .fuel ∧
    ∀ t, readTable N mix lines n h o = .ok t → (∀ x, t.value ≠ .plain x) ∧ (mix = true → h ≠ 0) := by
  unfold readTable readMix readNum
  constructor
  · split <;> split <;> simp [ofTable_fuel]
  · intro t ht
    split at ht
    · split at ht
      · cases ht
      · rename_i hp
        cases ht
        refine ⟨by simp, fun _ => ?_⟩
        rintro rfl
        unfold parseMix at hp
        split at hp
        · cases hp
        · simp at hp
    · split at ht
      · cases ht
      · rename_i hm _ _ _ 
        cases ht
        exact ⟨by simp, fun h => absurd h hm⟩

theorem valTable_progress {s : St N.F} (hs : Live N s) (n i : Nat) (k : Kind) (hk : k ∈ valKinds) (d : Item N.F)
    (line : Str) (rest : List Str) :
    Progress N (rest.length + 1) (line :: rest) (valTable N n s k d i (line :: rest)) := by
  have hh : ∀ k ∈ valKinds, 1 ≤ k.nHeaders := by decide
  have hh := hh k hk
  unfold valTable
  split
  · rename_i e he
    exact .error _ _ _ _ (by rintro rfl; exact tabLines_fuel _ _ _ he)
  · split
    · exact .error _ _ _ _ (by simp)
    · split
      · rename_i he
        exact .error _ _ _ _ (by rintro rfl; exact (readTable_ok ..).1 he)
      · rename_i t ht
        apply finish_progress
        · exact ⟨hs.data, fun x hx => hs.vals (List.erase_subset hx), hs.labs, hs.off⟩
        · exact counts_table _ _ ((readTable_ok ..).2 _ ht).1
        · simp only [List.length_drop, List.length_cons]; omega
        · intro l hl; exact List.mem_of_mem_drop hl

theorem labTableAt_progress {s : St N.F} (hs : Live N s) (n i m : Nat) (k : Kind) (hk : k ∈ labKinds) (d : Item N.F)
    (here lines : List Str) (hm : here.length < m ∨ (k.detect ≠ "numalf".toList ∧ here ≠ [] ∧ here.length ≤ m))
    (hsub : ∀ l ∈ here, l ∈ lines) :
    Progress N m lines (labTableAt N n s k d i here) := by
  have hh : ∀ k ∈ labKinds, k.nOffset < 2 ∨ (k.mix = true ∧ k.nHeaders = 0) := by decide
  have hh := hh k hk
  unfold labTableAt
  split
  · rename_i e he
    exact .error _ _ _ _ (by rintro rfl; exact tabLines_fuel _ _ _ he)
  · split
    · exact .error _ _ _ _ (by simp)
    · split
      · rename_i he
        exact .error _ _ _ _ (by rintro rfl; exact (readTable_ok ..).1 he)
      · rename_i t ht
        have hr := (readTable_ok ..).2 _ ht
        apply finish_progress
        · split
          · exact hs
          · exact ⟨hs.data, hs.vals, fun x hx => hs.labs (List.erase_subset hx), hs.off⟩
        · exact counts_table _ _ hr.1
        · rw [List.length_drop]
          rcases hm with hm | ⟨_, hne, hm⟩
          · omega
          · have := List.length_pos_iff.2 hne
            rcases hh with hh | hh
            · omega
            · exact absurd hh.2 (hr.2 hh.1)
        · intro l hl; exact hsub l (List.mem_of_mem_drop hl)

theorem labTable_progress {s : St N.F} (hs : Live N s) (n i : Nat) (k : Kind) (hk : k ∈ labKinds) (d : Item N.F)
    (hd : Counts d.label d.value) (line : Str) (rest : List Str) :
    Progress N (rest.length + 1) (line :: rest) (labTable N n s k d i line rest) := by
  unfold labTable
  split
  · exact labTableAt_progress (hs.add d hd) _ _ _ k hk _ _ _ (Or.inl (by simp)) (fun l hl => by simp [hl])
  · rename_i hn
    split
    · exact labTableAt_progress (hs.add _ (counts_off _ _ _ hd hs.off)) _ _ _ k hk _ _ _
        (Or.inr ⟨hn, by simp, by simp⟩) (fun l hl => hl)
    · exact labTableAt_progress hs _ _ _ k hk _ _ _ (Or.inr ⟨hn, by simp, by simp⟩) (fun l hl => hl)

theorem lookup_counts (data : List (Item F)) (h : ∀ d ∈ data, Counts d.label d.value) (name : Str)
    (hn : lower name = "numfoil".toList ∨ lower name = "numaffiles".toList) :
    lookup data name ≠ some (.plain (.scalar (.int 0))) := by
  unfold lookup
  intro he
  rw [Option.map_eq_some_iff] at he
  obtain ⟨d, hd, hv⟩ := he
  have hm := List.mem_of_find?_eq_some hd
  have hl := List.find?_some hd
  simp only [beq_iff_eq] at hl
  exact h d hm (by rw [hl]; exact hn) hv

theorem filTable_progress {s : St N.F} (hs : Live N s) (n i : Nat) (k : Str × Str × Str) (hk : k ∈ filKinds)
    (d : Item N.F) (line : Str) (rest : List Str) :
    Progress N (rest.length + 1) (line :: rest) (filTable N n s k d i (line :: rest)) := by
  have hh : ∀ k ∈ filKinds, lower k.2.1 = "numfoil".toList ∨ lower k.2.1 = "numaffiles".toList := by decide
  have hh := hh k hk
  unfold filTable
  split
  · rename_i e he
    exact .error _ _ _ _ (by rintro rfl; exact tabLines_fuel _ _ _ he)
  · rename_i m hm
    split
    · exact .error _ _ _ _ (by simp)
    · rename_i hneg
      split
      · exact .error _ _ _ _ (ofTable_fuel _)
      · apply finish_progress hs
        · exact counts_table _ _ (by simp)
        · have h0 : m ≠ 0 := by
            rintro rfl
            have hl := lookup_counts s.data hs.data k.2.1 hh
            unfold tabLines at hm
            simp only [List.append_nil] at hm
            split at hm
            · rename_i he; cases hm; exact hl he
            · cases hm
            · cases hm
          simp only [List.length_drop, List.length_cons]; omega
        · intro l hl; exact List.mem_of_mem_drop hl

theorem tablePart_progress {s : St N.F} (hs : Live N s) (n i : Nat) (raw : Str) (d : Item N.F)
    (hd : Counts d.label d.value) (line : Str) (rest : List Str) :
    Progress N (rest.length + 1) (line :: rest) (tablePart N n s raw d i line rest) := by
  unfold tablePart
  split
  · rename_i k hk
    apply valTable_progress hs
    unfold valKind at hk
    split at hk
    · exact hs.vals (List.mem_of_find?_eq_some hk)
    · cases hk
  · split
    · rename_i k hk
      exact labTable_progress hs _ _ _ (hs.labs (List.mem_of_find?_eq_some hk)) _ hd _ _
    · split
      · rename_i k hk
        exact filTable_progress hs _ _ _ (List.mem_of_find?_eq_some hk) _ _ _
      · exact finish_progress hs d hd _ _ _ _ _ (by simp) (fun l hl => by simp [hl])

theorem lineItem_ok (N : Num) (l : Str) : lineItem N l ≠ .error .fuel ∧
    (LineCounts N l → ∀ d, lineItem N l = .ok d → Counts d.label d.value) := by
  unfold lineItem
  split
  · exact ⟨by simp [ofLine_fuel], fun _ _ h => by cases h⟩
  · rename_i e he
    refine ⟨by simp, ?_⟩
    intro h d hd
    cases hd
    exact h false e he

theorem lineItems_fuel (N : Num) (k : Nat) (ls : List Str) : lineItems N k ls ≠ .error .fuel := by
  induction k generalizing ls with
  | zero => simp [lineItems]
  | succ k ih =>
    cases ls with
    | nil => simp [lineItems]
    | cons l ls =>
      rw [lineItems]
      split
      · rename_i he
        rintro ⟨⟩
        exact (lineItem_ok N l).1 he
      · split
        · rename_i he
          rintro ⟨⟩
          exact ih ls he
        · simp

theorem endItems_fuel (N : Num) : endItems N ≠ .error .fuel := by
  unfold endItems
  split
  · rename_i he
    rintro ⟨⟩
    exact lineItems_fuel _ _ _ he
  · simp

theorem refPoint_fuel (N : Num) (ls : List Str) : refPoint N ls ≠ .error .fuel := by
  unfold refPoint
  split
  · simp
  · split
    · split <;> simp
    · simp

theorem coords_progress (N : Num) (s : St N.F) (m : Nat) (lines rest : List Str) :
    Progress N m lines (coords N s rest) := by
  unfold coords
  split
  · rename_i he
    exact .error _ _ _ _ (by rintro rfl; exact lineItems_fuel _ _ _ he)
  · split
    · rename_i he
      exact .error _ _ _ _ (by rintro rfl; exact refPoint_fuel _ _ he)
    · split
      · rename_i he
        exact .error _ _ _ _ (by rintro rfl; exact lineItems_fuel _ _ _ he)
      · simp only
        split
        · split
          · exact .error _ _ _ _ (by simp)
          · split
            · rename_i he
              exact .error _ _ _ _ (by rintro rfl; exact (readTable_ok ..).1 he)
            · exact .stop _ _ _ _
        · exact .error _ _ _ _ (by simp)

theorem linePart_progress {s : St N.F} (hs : Live N s) (n i : Nat) (line : Str) (rest : List Str)
    (hl : LineCounts N line) :
    Progress N (rest.length + 1) (line :: rest) (linePart N n s i line rest) := by
  unfold linePart
  split
  · exact .error _ _ _ _ (ofLine_fuel _)
  · rename_i e he
    have hd : Counts (e.label ++ s.off) (.plain e.value : FVal N.F) := counts_off _ _ _ (hl _ e he) hs.off
    simp only
    split
    · exact tablePart_progress (s := { s with allow := true }) ⟨hs.data, hs.vals, hs.labs, hs.off⟩ _ _ _ _ hd _ _
    · split
      · unfold coordPart
        split
        · exact tablePart_progress hs _ _ _ _ hd _ _
        · split
          · exact tablePart_progress hs _ _ _ _ hd _ _
          · exact coords_progress _ _ _ _ _
        · exact .error _ _ _ _ (by simp)
      · split
        · rename_i hre
          unfold rePart
          split
          · simp only
            have ho : ∀ (b : Bool) (m : Nat), (if b = true then '_' :: Nat.toDigits 10 m else s.off) = [] ∨
                '_' ∈ (if b = true then '_' :: Nat.toDigits 10 m else s.off) := by
              intro b m
              cases b
              · simpa using hs.off
              · simp
            rename_i m _
            have hoff := ho (decide (1 < m)) (s.iTab + 1)
            simp only [decide_eq_true_eq] at hoff
            refine tablePart_progress (s := { s with iTab := s.iTab + 1, off := if 1 < m then '_' :: Nat.toDigits 10 (s.iTab + 1) else s.off })
              ⟨hs.data, hs.vals, hs.labs, hoff⟩ _ _ _ _ ?_ _ _
            refine counts_off _ _ _ ?_ hoff
            intro hx
            rw [hre] at hx
            exfalso; rcases hx with hx | hx <;> (revert hx; decide)
          · exact .error _ _ _ _ (by simp)
          · exact .error _ _ _ _ (by simp)
          · exact .error _ _ _ _ (by simp)
        · exact tablePart_progress hs _ _ _ _ hd _ _

theorem Progress.mono {N : Num} {m m' : Nat} {lines lines' : List Str} {r : Except RErr (Turn N.F)}
    (h : Progress N m lines r) (hm : m ≤ m') (hl : ∀ l ∈ lines, l ∈ lines') : Progress N m' lines' r :=
  ⟨h.1, fun s i rest hr => by
    obtain ⟨h1, h2, h3⟩ := h.2 s i rest hr
    exact ⟨h1, by omega, fun l hl' => hl l (h3 l hl')⟩⟩

theorem turn_progress {s : St N.F} (hs : Live N s) (n i : Nat) (line : Str) (rest : List Str)
    (hl : ∀ l ∈ line :: rest, LineCounts N l) :
    Progress N (rest.length + 1) (line :: rest) (turn N n s i line rest) := by
  have hline := hl line (by simp)
  unfold turn
  split
  · unfold outSection
    split
    · exact .error _ _ _ _ (by simp)
    · split
      · exact .error _ _ _ _ (ofLine_fuel _)
      · rename_i chans _
        simp only
        split
        · exact .stop _ _ _ _
        · rename_i l ls hdrop
          have hsub : ∀ x ∈ l :: ls, x ∈ rest := fun x hx => List.mem_of_mem_drop (hdrop ▸ hx)
          have hlen : ls.length + 1 ≤ rest.length := by
            have := congrArg List.length hdrop
            simp only [List.length_drop, List.length_cons] at this
            omega
          split
          · refine (linePart_progress (s := { (s.add _) with nodal := true }) ?_ _ _ l ls
              (hl l (by simp [hsub l (by simp)]))).mono (by omega) (fun x hx => by simp [hsub x hx])
            exact ⟨(hs.add _ (counts_table _ _ (by simp))).data, hs.vals, hs.labs, hs.off⟩
          · split
            · rename_i he
              exact .error _ _ _ _ (by rintro rfl; exact endItems_fuel _ he)
            · exact .stop _ _ _ _
  · split
    · unfold sdSection
      split
      · rename_i he
        exact .error _ _ _ _ (by rintro rfl; exact (lineItem_ok _ _).1 he)
      · split
        · exact .error _ _ _ _ (ofLine_fuel _)
        · split
          · rename_i he
            exact .error _ _ _ _ (by rintro rfl; exact endItems_fuel _ he)
          · exact .stop _ _ _ _
    · split
      · unfold stiffSection
        split
        · rename_i he
          exact .error _ _ _ _ (by rintro rfl; exact (lineItem_ok _ _).1 he)
        · rename_i d hd
          split
          · exact .error _ _ _ _ (by simp)
          · simp only
            split
            · exact .stop _ _ _ _
            · rename_i l ls hdrop
              have hsub : ∀ x ∈ l :: ls, x ∈ rest := fun x hx => List.mem_of_mem_drop (hdrop ▸ hx)
              have hlen : ls.length + 1 ≤ rest.length := by
                have := congrArg List.length hdrop
                simp only [List.length_drop, List.length_cons] at this
                omega
              refine (linePart_progress ((hs.add d ((lineItem_ok N line).2 hline d hd)).add _
                (counts_table _ _ (by simp))) _ _ l ls
                (hl l (by simp [hsub l (by simp)]))).mono (by omega) (fun x hx => by simp [hsub x hx])
      · split
        · unfold beamSection
          split
          · rename_i he
            exact .error _ _ _ _ (by rintro rfl; exact (lineItem_ok _ _).1 he)
          · split
            · rename_i he
              exact .error _ _ _ _ (by rintro rfl; exact tabLines_fuel _ _ _ he)
            · split
              · exact .error _ _ _ _ (by simp)
              · split
                · exact .error _ _ _ _ (by simp)
                · exact .stop _ _ _ _
        · exact linePart_progress hs _ _ _ _ hline

theorem loop_ends (N : Num) (n : Nat) (fuel : Nat) : ∀ (s : St N.F) (i : Nat) (lines : List Str), Live N s →
    (∀ l ∈ lines, LineCounts N l) → lines.length ≤ fuel →
    loop N n fuel s i lines ≠ .error .fuel ∧ ∀ f, lines.length ≤ f → loop N n f s i lines = loop N n fuel s i lines := by
  induction fuel with
  | zero =>
    intro s i lines hs hl hf
    have : lines = [] := by simpa using hf
    subst this
    refine ⟨by simp [loop], ?_⟩
    intro f _
    cases f <;> simp [loop]
  | succ fuel ih =>
    intro s i lines hs hl hf
    cases lines with
    | nil =>
      refine ⟨by simp [loop], ?_⟩
      intro f _
      cases f <;> simp [loop]
    | cons line rest =>
      have hp := turn_progress hs n i line rest hl
      simp only [List.length_cons] at hf
      refine ⟨?_, ?_⟩
      · rw [loop]
        split
        · rename_i he
          rintro ⟨⟩
          exact hp.1 he
        · simp
        · rename_i he
          obtain ⟨h1, h2, h3⟩ := hp.2 _ _ _ he
          exact (ih _ _ _ h1 (fun l hx => hl l (h3 l hx)) (by omega)).1
      · intro f hlf
        simp only [List.length_cons] at hlf
        obtain ⟨f, rfl⟩ : ∃ g, f = g + 1 := ⟨f - 1, by omega⟩
        rw [loop, loop]
        split
        · rfl
        · rfl
        · rename_i he
          obtain ⟨h1, h2, h3⟩ := hp.2 _ _ _ he
          exact (ih _ _ _ h1 (fun l hx => hl l (h3 l hx)) (by omega)).2 f (by omega)

theorem live_start (N : Num) : Live N ({} : St N.F) :=
  ⟨by simp, fun _ h => h, fun _ h => h, Or.inl rfl⟩

theorem readAD14_fuel (N : Num) (lines : List Str) : readAD14 N lines ≠ .error .fuel := by
  have hv : ∀ l, ad14Value N l ≠ .error .fuel := by
    intro l; unfold ad14Value; split
    · simp
    · split <;> simp
  have hvs : ∀ ls : List Str, ls.mapM (ad14Value N) ≠ .error .fuel := by
    intro ls
    induction ls with
    | nil => intro h; cases h
    | cons l ls ih =>
      rw [List.mapM_cons]
      have h1 := hv l
      cases he : ad14Value N l with
      | error e => rw [he] at h1; simpa [bind, Except.bind] using h1
      | ok x =>
        simp only [bind, Except.bind]
        cases hm : ls.mapM (ad14Value N) with
        | error e => rw [hm] at ih; simpa using ih
        | ok xs => simp [pure, Except.pure]
  have hr : ∀ ls, ad14Rows N ls ≠ .error .fuel := by
    intro ls; unfold ad14Rows; split
    · simp
    · simp
    · split <;> simp
  unfold readAD14
  extract_lets m
  split
  · simp
  · split
    · rename_i he
      rintro ⟨⟩
      exact hvs _ he
    · split
      · rename_i he
        rintro ⟨⟩
        exact hr _ he
      · simp

end Verif.FastRead
