import Verif.Proofs.Sampling
namespace Traverse

theorem nodup_subset_length {α : Type} [DecidableEq α] {l m : List α} (hl : l.Nodup) (hs : ∀ x ∈ l, x ∈ m) :
    l.length ≤ m.length := by
  induction l generalizing m with
  | nil => simp
  | cons a as ih =>
    rw [List.nodup_cons] at hl
    have ha : a ∈ m := hs a (by simp)
    have := ih (m := m.erase a) hl.2 (by
      intro x hx
      have : x ≠ a := by rintro rfl; exact hl.1 hx
      exact (List.mem_erase_of_ne this).2 (hs x (by simp [hx])))
    rw [List.length_erase_of_mem ha] at this
    have := List.length_pos_of_mem ha
    simp only [List.length_cons]
    omega

theorem FS.At.pre_prefix {pre f p g} (h : FS.At pre f p g) : (pre ++ [f.name]) <+: p := by
  induction h with
  | here pre f => exact List.prefix_refl _
  | inside hk h ih => exact (List.prefix_append _ _).trans ih

theorem FS.At.unique {pre f p g} (h : FS.At pre f p g) : f.Distinct → ∀ g', FS.At pre f p g' → g = g' := by
  induction h with
  | here pre f =>
    intro _ g' h'
    cases h' with
    | here => rfl
    | inside hk h =>
      have := h.pre_prefix.length_le
      simp [FS.name] at this
  | @inside pre n ie re kids k p g hk h ih =>
    intro hd g' h'
    generalize hf : FS.dir n ie re kids = f at h'
    cases h' with
    | here =>
      have := h.pre_prefix.length_le
      simp at this
    | @inside _ n' ie' re' kids' k' _ _ hk' h'' =>
      cases hf
      have h1 := h.pre_prefix
      have h2 := h''.pre_prefix
      have hn : k.name = k'.name := prefix_snoc_inj h1 h2
      rw [FS.Distinct] at hd
      have hkk : k = k' := by
        have hnd := hd.1
        clear ih h h'' h1 h2 hd
        induction kids with
        | nil => simp at hk
        | cons a as ih =>
          simp only [List.map_cons, List.nodup_cons, List.mem_map, not_exists, not_and] at hnd
          rcases List.mem_cons.1 hk with e1 | e1 <;> rcases List.mem_cons.1 hk' with e2 | e2
          · rw [e1, e2]
          · exact absurd (e1 ▸ hn.symm) (hnd.1 k' e2)
          · exact absurd (e2 ▸ hn) (hnd.1 k e1)
          · exact ih e1 e2 hnd.2
      subst hkk
      exact ih ((FS.distinctL_iff _).1 hd.2 k hk) g' h''

theorem FS.At.up {pre f q g} (h : FS.At pre f q g) : (q = pre ++ [f.name] ∧ g = f) ∨
    ∃ p n ie re kids, FS.At pre f p (.dir n ie re kids) ∧ g ∈ kids ∧ q = p ++ [g.name] := by
  induction h with
  | here pre f => exact Or.inl ⟨rfl, rfl⟩
  | @inside pre n ie re kids k p g hk h ih =>
    right
    rcases ih with ⟨rfl, rfl⟩ | ⟨p', n', ie', re', kids', h1, h2, h3⟩
    · exact ⟨_, n, ie, re, kids, .here pre _, hk, rfl⟩
    · exact ⟨p', n', ie', re', kids', .inside hk h1, h2, h3⟩

theorem sampleOf_nodup (keep q) (kids : List FS) (h : (kids.map FS.name).Nodup) :
    ((sampleOf keep q kids).map FS.name).Nodup := by
  have hp : (sampleOf keep q kids).Sublist
      (((kids.filter (fun k => k.name != ".DS_Store")).filter (fun k => keep k.entry)).filter (fun k => !k.isDir) ++
       ((kids.filter (fun k => k.name != ".DS_Store")).filter (fun k => keep k.entry)).filter (fun k => k.isDir)) :=
    (portion_sublist _ _ _).append (portion_sublist _ _ _)
  have hperm := (List.perm_append_comm.trans (List.filter_append_perm (fun k : FS => k.isDir)
    ((kids.filter (fun k => k.name != ".DS_Store")).filter (fun k => keep k.entry)))).map FS.name
  have h2 := h.sublist ((List.filter_sublist (p := fun k => k.name != ".DS_Store")).map FS.name)
  have h3 := h2.sublist ((List.filter_sublist (p := fun k => keep k.entry)).map FS.name)
  exact ((hperm.nodup_iff).2 h3).sublist (hp.map FS.name)

theorem sampleOf_mem (keep q) (kids : List FS) (k : FS) (h : k ∈ sampleOf keep q kids) : k ∈ kids := by
  rcases List.mem_append.1 h with h | h <;>
    exact (List.mem_filter.1 (List.mem_filter.1 (List.mem_filter.1 ((portion_sublist _ _ _).subset h)).1).1).1

theorem sampled_distinct (keep q) (f : FS) (h : f.Distinct) : (f.sampled keep q).Distinct := by
  induction f using FS.ind with
  | hf => simp [FS.sampled, FS.Distinct]
  | hd n ie re kids ih =>
    rw [FS.Distinct] at h
    rw [FS.sampled]
    split
    · simp [FS.Distinct, FS.DistinctL]
    · rw [FS.Distinct, FS.distinctL_iff, sampledL_map]
      refine ⟨sampleOf_nodup _ _ _ ?_, ?_⟩
      · rw [List.map_map]
        have : (FS.name ∘ FS.sampled keep q) = FS.name := by
          funext k; exact congrArg Entry.name (sampled_entry keep q k)
        rw [this]; exact h.1
      · intro f hf
        obtain ⟨k, hk, rfl⟩ := List.mem_map.1 (sampleOf_mem _ _ _ _ hf)
        exact ih k hk ((FS.distinctL_iff _).1 h.2 k hk)

theorem portion_length {α : Type} (n : Nat) (b) (l : List α) (hn : 0 < n) : (portion n b l).length ≤ n := by
  unfold portion
  rw [if_neg (by omega)]
  split
  · simp; omega
  · simp; omega

theorem sampleOf_counts (keep q) (kids : List FS) :
    (0 < q.files → ((sampleOf keep q kids).filter (fun k => !k.isDir)).length ≤ q.files) ∧
    (0 < q.dirs → ((sampleOf keep q kids).filter (fun k => k.isDir)).length ≤ q.dirs) := by
  simp only [sampleOf]
  have := portions_kinds q.files q.dirs q.inReverse FS.isDir
    ((kids.filter (fun k => k.name != ".DS_Store")).filter (fun k => keep k.entry))
  rw [this.1, this.2]
  exact ⟨portion_length _ _ _, portion_length _ _ _⟩

/-- Directories of a sampled file system hold samples. -/
theorem sampled_at (keep q) {pre f p g} (h : FS.At pre f p g) : ∀ f0, f = FS.sampled keep q f0 →
    ∀ n ie re kids, g = .dir n ie re kids → ∃ K, kids = sampleOf keep q K := by
  induction h with
  | here pre f =>
    intro f0 hf n ie re kids hg
    subst hf
    cases f0 with
    | file => simp [FS.sampled] at hg
    | dir n' ie' re' kids' =>
      rw [FS.sampled] at hg
      split at hg
      · cases hg; exact ⟨[], by simp [sampleOf, portion]⟩
      · cases hg; exact ⟨_, rfl⟩
  | @inside pre n ie re kids k p g hk h ih =>
    intro f0 hf
    cases f0 with
    | file => simp [FS.sampled] at hf
    | dir n' ie' re' kids' =>
      rw [FS.sampled] at hf
      split at hf
      · cases hf; simp at hk
      · cases hf
        rw [sampledL_map] at hk
        obtain ⟨k0, _, hk0⟩ := List.mem_map.1 (sampleOf_mem _ _ _ _ hk)
        exact ih k0 hk0.symm


theorem sampled_readable (keep q) (f : FS) : (f.sampled keep q).Readable := by
  induction f using FS.ind with
  | hf => simp [FS.sampled, FS.Readable]
  | hd n ie re kids ih =>
    rw [FS.sampled]
    split
    · simp [FS.Readable, FS.ReadableL]
    · rw [FS.Readable]
      refine ⟨rfl, ?_⟩
      rw [sampledL_map]
      have : ∀ l : List FS, (∀ k ∈ l, k.Readable) → FS.ReadableL l := by
        intro l
        induction l with
        | nil => simp [FS.ReadableL]
        | cons a as ih => intro h; exact ⟨h a (by simp), ih (fun k hk => h k (by simp [hk]))⟩
      apply this
      intro k hk
      obtain ⟨k0, hk0, rfl⟩ := List.mem_map.1 (sampleOf_mem _ _ _ _ hk)
      exact ih k0 hk0

theorem items_at_read (c : Nav) (t : Tree) : ∀ ps pp d, ∀ it ∈ items c ps pp d t, ∃ u, Tree.At pp t it.node.path u ∧
    it.readErr = readErrOf c u ∧ it.node.isDir = u.isDir := by
  induction t using Tree.ind with
  | h e r fs ds kids ih =>
    intro ps pp d it hit
    simp only [items] at hit
    split at hit
    · simp at hit
    · rcases List.mem_cons.1 hit with rfl | hit
      · exact ⟨.node e r fs ds kids, .here pp _, rfl, rfl⟩
      · rw [itemsList_eq, List.mem_flatMap] at hit
        obtain ⟨k, hk, hit⟩ := hit
        obtain ⟨u, h1, h2, h3⟩ := ih k hk _ _ _ it hit
        exact ⟨u, .inside (by simpa using hk) h1, h2, h3⟩

theorem Run.ask_mem {sub d0 l evs f} (h : Run sub d0 l evs f) {n re sk e} (hm : Ev.ask n re sk e ∈ evs) :
    ∃ it ∈ l, n = it.node ∧ re = it.readErr := by
  have key : ∀ {it : Item} {evs a}, Step sub it evs a → Ev.ask n re sk e ∈ evs → n = it.node ∧ re = it.readErr := by
    intro it evs a hs hm
    cases hs <;> simp at hm
    · exact ⟨hm.1, hm.2.1⟩
    · exact ⟨hm.1, hm.2.1⟩
  have here : ∀ {it : Item} {rest : List Item} {evs a}, Step sub it evs a → Ev.ask n re sk e ∈ evs →
      ∃ k ∈ it :: rest, n = k.node ∧ re = k.readErr := fun hs hm => ⟨_, by simp, key hs hm⟩
  have later : ∀ {it : Item} {rest : List Item} (p : Item → Bool), (∃ k ∈ rest.dropWhile p, n = k.node ∧ re = k.readErr) →
      ∃ k ∈ it :: rest, n = k.node ∧ re = k.readErr := by
    intro it rest p ⟨k, hk, h⟩
    exact ⟨k, by simp [(List.dropWhile_sublist p).subset hk], h⟩
  induction h with
  | nil => simp at hm
  | travel hs _ ih =>
    rcases List.mem_append.1 hm with hm | hm
    · exact here hs hm
    · obtain ⟨k, hk, h⟩ := ih hm; exact ⟨k, by simp [hk], h⟩
  | root hs => exact here hs hm
  | next hs _ _ _ ih =>
    rcases List.mem_append.1 hm with hm | hm
    · exact here hs hm
    · exact later _ (ih hm)
  | leave hs _ _ _ _ ih =>
    rcases List.mem_append.1 hm with hm | hm
    · exact here hs hm
    · exact later _ (ih hm)
  | leaveTop hs => exact here hs hm
  | stop hs => exact here hs hm
  | crash hs =>
    rcases List.mem_append.1 hm with hm | hm
    · exact here hs hm
    · simp at hm

variable {σ : Type}
theorem asked_item (c : Nav) (env : Env σ) (x : σ) (pre : Path) (fs : FS) (n re sk e)
    (h : Ev.ask n re sk e ∈ (walk c env x pre fs).2.log) :
    ∃ it ∈ items c [] pre 0 (prep c fs), n = it.node ∧ re = it.readErr := by
  exact (walk_run c env x pre fs).ask_mem ((mem_acts_iff rfl).2 h)

end Traverse
