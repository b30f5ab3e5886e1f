import Verif.Proofs.Faults
namespace Traverse
variable {σ : Type}

/-- Two directories whose entries agree are arranged alike. -/
theorem arrange_pairs (c : Nav) (hs : SortByEntries c) (hr : c.read = defaultRead) (e : Entry)
    (pr : List (Tree × Tree)) (hp : ∀ p ∈ pr, p.1.entry = p.2.entry) :
    ∃ (fs ds : List Entry) (qs : List (Tree × Tree)),
      arrange c e none (pr.map Prod.fst) = .node e none fs ds (qs.map Prod.fst) ∧
      arrange c e none (pr.map Prod.snd) = .node e none fs ds (qs.map Prod.snd) ∧
      ∀ q ∈ qs, q ∈ pr ∧ q.1.name ≠ ".DS_Store" := by
  have hkeep : ∀ (P : Tree → Bool), (∀ p ∈ pr, P p.1 = P p.2) →
      (pr.map Prod.fst).filter P = (pr.filter (fun p => P p.1)).map Prod.fst ∧
      (pr.map Prod.snd).filter P = (pr.filter (fun p => P p.1)).map Prod.snd := by
    intro P hP
    refine ⟨by rw [List.filter_map]; rfl, ?_⟩
    rw [List.filter_map]; congr 1
    apply List.filter_congr
    intro p hpm; exact (hP p hpm).symm
  have hnm := hkeep (fun t => t.name != ".DS_Store") (fun p hpm => by simp only [Tree.name, hp p hpm])
  have hmid : ∀ p ∈ pr.filter (fun p => p.1.name != ".DS_Store"), p ∈ pr ∧ p.1.name ≠ ".DS_Store" := by
    intro p hpm
    obtain ⟨h1, h2⟩ := List.mem_filter.1 hpm
    exact ⟨h1, by simpa using h2⟩
  generalize pr.filter (fun p => p.1.name != ".DS_Store") = mid at hnm hmid
  have hsplit : ∀ (P : Tree → Bool), (∀ p ∈ mid, P p.1 = P p.2) → ∃ qs : List (Tree × Tree),
      (∀ q ∈ qs, q ∈ mid) ∧
      (mid.map Prod.fst).filter P = (mid.filter (fun p => P p.1)).map Prod.fst ∧
      (mid.map Prod.snd).filter P = (mid.filter (fun p => P p.1)).map Prod.snd ∧
      c.sort ((mid.map Prod.fst).filter P) = qs.map Prod.fst ∧
      c.sort ((mid.map Prod.snd).filter P) = qs.map Prod.snd := by
    intro P hP
    have e1 : (mid.map Prod.fst).filter P = (mid.filter (fun p => P p.1)).map Prod.fst := by rw [List.filter_map]; rfl
    have e2 : (mid.map Prod.snd).filter P = (mid.filter (fun p => P p.1)).map Prod.snd := by
      rw [List.filter_map]; congr 1
      apply List.filter_congr
      intro p hpm; exact (hP p hpm).symm
    obtain ⟨qs, hq, h1, h2⟩ := hs (mid.filter (fun p => P p.1)) (fun p hpm => hp p (hmid p (List.mem_filter.1 hpm).1).1)
    exact ⟨qs, fun q hqm => (List.mem_filter.1 (hq.mem_iff.1 hqm)).1, e1, e2, by rw [e1, h1], by rw [e2, h2]⟩
  have hent : ∀ qs : List (Tree × Tree), (∀ q ∈ qs, q ∈ mid) →
      (qs.map Prod.fst).map Tree.entry = (qs.map Prod.snd).map Tree.entry := by
    intro qs hqs
    rw [List.map_map, List.map_map]
    apply List.map_congr_left
    intro q hq
    exact hp q (hmid q (hqs q hq)).1
  obtain ⟨qf, hqf, f1, f2, f3, f4⟩ := hsplit (fun t => !t.isDir) (fun p hpm => by
    simp only [Tree.isDir, hp p (hmid p hpm).1])
  obtain ⟨qd, hqd, d1, d2, d3, d4⟩ := hsplit (fun t => t.isDir) (fun p hpm => by
    simp only [Tree.isDir, hp p (hmid p hpm).1])
  have hfl : ((mid.map Prod.fst).filter (fun t => !t.isDir)).map Tree.entry =
      ((mid.map Prod.snd).filter (fun t => !t.isDir)).map Tree.entry := by
    rw [f1, f2]
    exact hent _ (fun q hq => (List.mem_filter.1 hq).1)
  by_cases hsub : c.sub = .directories ∨ c.sub = .directoriesWithFiles
  · refine ⟨((mid.map Prod.fst).filter (fun t => !t.isDir)).map Tree.entry, (qd.map Prod.fst).map Tree.entry, qd, ?_, ?_,
      fun q hq => hmid q (hqd q hq)⟩
    · simp only [arrange, hr, defaultRead, hnm.1]
      rw [d3]
      rcases hsub with h | h <;> simp only [h]
    · simp only [arrange, hr, defaultRead, hnm.2]
      rw [d4, hfl, hent qd hqd]
      rcases hsub with h | h <;> simp only [h]
  · refine ⟨(qf.map Prod.fst).map Tree.entry, (qd.map Prod.fst).map Tree.entry,
      if c.filesFirst then qf ++ qd else qd ++ qf, ?_, ?_, ?_⟩
    · simp only [arrange, hr, defaultRead, hnm.1]
      rw [d3, f3]
      cases hc : c.sub <;> simp_all <;> split <;> simp
    · simp only [arrange, hr, defaultRead, hnm.2]
      rw [d4, f4, hent qd hqd, hent qf hqf]
      cases hc : c.sub <;> simp_all <;> split <;> simp
    · intro q hq
      apply hmid
      split at hq <;> rcases List.mem_append.1 hq with h | h
      · exact hqf q h
      · exact hqd q h
      · exact hqd q h
      · exact hqf q h

theorem badDirsL_eq (pre : Path) (l : List FS) :
    FS.badDirsL pre l = (l.filter (fun f => f.name != ".DS_Store")).flatMap (FS.badDirs pre) := by
  induction l with
  | nil => rfl
  | cons f fs ih =>
    rw [FS.badDirsL, ih, List.filter_cons]
    by_cases h : f.name = ".DS_Store" <;> simp [h]

theorem prep_entry_eq (c : Nav) (f : FS) : (prep c f).entry = ⟨f.name, f.isDir, f.infoErr⟩ := by
  cases f with
  | file n ie re => simp [prep, FS.name, FS.isDir, FS.infoErr]
  | dir n ie re kids => rw [prep_dir, arrange_entry]; rfl

theorem emptied_id (f : FS) : f.emptied.name = f.name ∧ f.emptied.isDir = f.isDir ∧ f.emptied.infoErr = f.infoErr := by
  cases f with
  | file n ie re => simp [FS.emptied, FS.name, FS.isDir, FS.infoErr]
  | dir n ie re kids => rw [FS.emptied]; split <;> simp [FS.name, FS.isDir, FS.infoErr]
theorem mended_id (f : FS) : f.mended.name = f.name ∧ f.mended.isDir = f.isDir ∧ f.mended.infoErr = f.infoErr := by
  cases f <;> simp [FS.mended, FS.name, FS.isDir, FS.infoErr]

/-- The two repaired file systems differ only at and below the bad directories. -/
theorem items_emptied_mended {γ : Type} (c : Nav) (hs : SortByEntries c) (hr : c.read = defaultRead)
    (g : Node → γ) (ok : Node → Bool) (f : FS) : ∀ ps pp d,
    (∀ b ∈ f.badDirs pp, ∀ n, ok n = true → ¬ Above b n.path) →
    (∀ b ∈ f.badDirs pp, ∀ n m : Node, n.path = b → m.path = b → n.isDir = m.isDir → n.depth = m.depth →
      n.infoErr = m.infoErr → ok n = ok m ∧ (ok n = true → g n = g m)) →
    (((items c ps pp d (prep c f.emptied)).map (·.node)).filter ok).map g =
    (((items c ps pp d (prep c f.mended)).map (·.node)).filter ok).map g := by
  induction f using FS.ind with
  | hf n ie re => intro ps pp d _ _; simp [FS.emptied, FS.mended]
  | hd n ie re kids ih =>
    intro ps pp d hab hat
    cases re with
    | some x =>
      have hb : pp ++ [n] ∈ FS.badDirs pp (.dir n ie (some x) kids) := by simp [FS.badDirs]
      -- what comes after the root is dropped on both sides
      have aux : ∀ T : Tree, T.entry = ⟨n, true, ie⟩ →
          ((items c ps pp d T).map (·.node)).filter ok =
            if tooDeep c d then [] else [mkNode c ps (pp ++ [n]) T (d + 1)].filter ok := by
        intro T hT
        cases T with
        | node e r fs ds ks =>
          simp only [Tree.entry_node] at hT
          subst hT
          simp only [items]
          split
          · simp
          · simp only [List.map_cons, List.filter_cons, List.filter_nil]
            have : ((itemsList c ((mkNode c ps (pp ++ [n]) (.node ⟨n, true, ie⟩ r fs ds ks) (d + 1)).toNodeInfo :: ps)
                (pp ++ [n]) (d + 1) ks).map (·.node)).filter ok = [] := by
              apply List.filter_eq_nil_iff.2
              intro m hm hok
              obtain ⟨it, hit, rfl⟩ := List.mem_map.1 hm
              obtain ⟨k, _, h1⟩ := itemsList_path c ks _ _ _ it hit
              refine hab _ hb _ hok ⟨(List.prefix_append _ _).trans h1.1, ?_⟩
              intro he
              have := h1.1.length_le
              rw [← he] at this
              simp at this
            rw [this]
      rw [aux _ (by rw [prep_entry_eq, (emptied_id _).1, (emptied_id _).2.1, (emptied_id _).2.2]; rfl),
        aux _ (by rw [prep_entry_eq, (mended_id _).1, (mended_id _).2.1, (mended_id _).2.2]; rfl)]
      split
      · rfl
      · have e1 := prep_entry_eq c (FS.emptied (.dir n ie (some x) kids))
        have e2 := prep_entry_eq c (FS.mended (.dir n ie (some x) kids))
        rw [(emptied_id _).1, (emptied_id _).2.1, (emptied_id _).2.2] at e1
        rw [(mended_id _).1, (mended_id _).2.1, (mended_id _).2.2] at e2
        obtain ⟨h1, h2⟩ := hat _ hb (mkNode c ps (pp ++ [n]) (prep c (FS.emptied (.dir n ie (some x) kids))) (d + 1))
          (mkNode c ps (pp ++ [n]) (prep c (FS.mended (.dir n ie (some x) kids))) (d + 1)) rfl rfl
          (by simp [Tree.isDir, e1, e2]) rfl (by simp [mkNode, e1, e2])
        simp only [List.filter_cons, List.filter_nil]
        rw [← h1]
        split
        · rename_i h; simp [h2 h]
        · rfl
    | none =>
      simp only [FS.emptied, FS.mended, Option.isSome_none, Bool.false_eq_true, if_false, emptiedL_map, mendedL_map]
      rw [prep_dir, prep_dir]
      obtain ⟨fs, ds, qs, h1, h2, h3⟩ := arrange_pairs c hs hr ⟨n, true, ie⟩
        (kids.map fun k => (prep c k.emptied, prep c k.mended)) (by
          intro p hp
          obtain ⟨k, _, rfl⟩ := List.mem_map.1 hp
          simp only [prep_entry_eq, (emptied_id k).1, (emptied_id k).2.1, (emptied_id k).2.2,
            (mended_id k).1, (mended_id k).2.1, (mended_id k).2.2])
      simp only [List.map_map, Function.comp_def] at h1 h2
      rw [List.map_map, List.map_map]
      simp only [Function.comp_def]
      rw [h1, h2]
      simp only [items]
      split
      · rfl
      · have hn : mkNode c ps (pp ++ [n]) (.node ⟨n, true, ie⟩ none fs ds (qs.map Prod.fst)) (d + 1) =
            mkNode c ps (pp ++ [n]) (.node ⟨n, true, ie⟩ none fs ds (qs.map Prod.snd)) (d + 1) := rfl
        rw [hn]
        generalize mkNode c ps (pp ++ [n]) (.node ⟨n, true, ie⟩ none fs ds (qs.map Prod.snd)) (d + 1) = N
        simp only [List.map_cons, List.filter_cons]
        have hrest : (((itemsList c (N.toNodeInfo :: ps) (pp ++ [n]) (d + 1) (qs.map Prod.fst)).map (·.node)).filter ok).map g =
            (((itemsList c (N.toNodeInfo :: ps) (pp ++ [n]) (d + 1) (qs.map Prod.snd)).map (·.node)).filter ok).map g := by
          clear h1 h2 hn
          induction qs with
          | nil => rfl
          | cons q qs ihq =>
            simp only [List.map_cons, itemsList, List.map_append, List.filter_append]
            rw [ihq (fun q' hq' => h3 q' (by simp [hq']))]
            congr 1
            obtain ⟨hq, hname⟩ := h3 q (by simp)
            obtain ⟨k, hk, rfl⟩ := List.mem_map.1 hq
            simp only at hname
            rw [(prep_entry c _).1, (emptied_id k).1] at hname
            have hsubset : ∀ b ∈ k.badDirs (pp ++ [n]), b ∈ FS.badDirs pp (.dir n ie none kids) := by
              intro b hb
              simp only [FS.badDirs, Option.isSome_none, Bool.false_eq_true, if_false, badDirsL_eq]
              exact List.mem_flatMap.2 ⟨k, List.mem_filter.2 ⟨hk, by simpa using hname⟩, hb⟩
            exact ih k hk _ _ _ (fun b hb => hab b (hsubset b hb)) (fun b hb => hat b (hsubset b hb))
        split
        · simp only [List.map_cons, hrest]
        · exact hrest

theorem FS.readableL_iff (l : List FS) : FS.ReadableL l ↔ ∀ f ∈ l, f.Readable := by
  induction l with
  | nil => simp [FS.ReadableL]
  | cons x xs ih => simp [FS.ReadableL, ih]

theorem emptied_readable (f : FS) : f.emptied.Readable := by
  induction f using FS.ind with
  | hf => simp [FS.emptied, FS.Readable]
  | hd n ie re kids ih =>
    rw [FS.emptied]
    split
    · simp [FS.Readable, FS.ReadableL]
    · simp only [FS.Readable, true_and, FS.readableL_iff, emptiedL_map]
      intro f hf
      obtain ⟨k, hk, rfl⟩ := List.mem_map.1 hf
      exact ih k hk
theorem mended_readable (f : FS) : f.mended.Readable := by
  induction f using FS.ind with
  | hf => simp [FS.mended, FS.Readable]
  | hd n ie re kids ih =>
    rw [FS.mended]
    simp only [FS.Readable, true_and, FS.readableL_iff, mendedL_map]
    intro f hf
    obtain ⟨k, hk, rfl⟩ := List.mem_map.1 hf
    exact ih k hk

theorem emptied_distinct (f : FS) (h : f.Distinct) : f.emptied.Distinct := by
  induction f using FS.ind with
  | hf => simp [FS.emptied, FS.Distinct]
  | hd n ie re kids ih =>
    rw [FS.Distinct] at h
    rw [FS.emptied]
    split
    · simp [FS.Distinct, FS.DistinctL]
    · rw [FS.Distinct, FS.distinctL_iff, emptiedL_map, List.map_map]
      refine ⟨?_, ?_⟩
      · have : (FS.name ∘ FS.emptied) = FS.name := by funext k; exact (emptied_id k).1
        rw [this]; exact h.1
      · intro f hf
        obtain ⟨k, hk, rfl⟩ := List.mem_map.1 hf
        exact ih k hk ((FS.distinctL_iff _).1 h.2 k hk)
theorem mended_distinct (f : FS) (h : f.Distinct) : f.mended.Distinct := by
  induction f using FS.ind with
  | hf => simp [FS.mended, FS.Distinct]
  | hd n ie re kids ih =>
    rw [FS.Distinct] at h
    rw [FS.mended]
    rw [FS.Distinct, FS.distinctL_iff, mendedL_map, List.map_map]
    refine ⟨?_, ?_⟩
    · have : (FS.name ∘ FS.mended) = FS.name := by funext k; exact (mended_id k).1
      rw [this]; exact h.1
    · intro f hf
      obtain ⟨k, hk, rfl⟩ := List.mem_map.1 hf
      exact ih k hk ((FS.distinctL_iff _).1 h.2 k hk)

theorem badDirs_nodes (f : FS) : ∀ pre, ∀ b ∈ f.badDirs pre, (b, true) ∈ f.nodes pre := by
  induction f using FS.ind with
  | hf => intro pre b hb; simp [FS.badDirs] at hb
  | hd n ie re kids ih =>
    intro pre b hb
    cases re with
    | some x => simp [FS.badDirs] at hb; simp [FS.nodes, hb]
    | none =>
      simp only [FS.badDirs, Option.isSome_none, Bool.false_eq_true, if_false, badDirsL_eq, List.mem_flatMap] at hb
      obtain ⟨k, hk, hb⟩ := hb
      simp only [FS.nodes, Option.isSome_none, Bool.false_eq_true, if_false, nodesL_eq, List.mem_cons, List.mem_flatMap]
      exact Or.inr ⟨k, hk, ih k (List.mem_filter.1 hk).1 _ b hb⟩

theorem SortByEntries.permutes {c : Nav} (h : SortByEntries c) : SortPermutes c := by
  intro l
  obtain ⟨qs, hq, h1, _⟩ := h (l.map fun t => (t, t)) (by
    intro p hp; obtain ⟨t, _, rfl⟩ := List.mem_map.1 hp; rfl)
  have hq' := hq.map Prod.fst
  rw [← h1] at hq'
  simpa [List.map_map, Function.comp_def] using hq'

/-- Each item stems from the node of the tree at its path. -/
theorem items_at (c : Nav) (t : Tree) : ∀ ps pp d, ∀ it ∈ items c ps pp d t, ∃ u ps', Tree.At pp t it.node.path u ∧
    it.node = mkNode c ps' it.node.path u (it.node.depth + 1) ∧ d ≤ it.node.depth ∧
    (it.node.depth = d → ps' = ps) ∧ (d < it.node.depth → ps' ≠ []) := by
  induction t using Tree.ind with
  | h e r fs ds kids ih =>
    intro ps pp d it hit
    simp only [items] at hit
    split at hit
    · simp at hit
    · rcases List.mem_cons.1 hit with rfl | hit
      · refine ⟨.node e r fs ds kids, ps, ?_, ?_, ?_, fun _ => rfl, ?_⟩
        · exact .here pp _
        · simp only [mkNode_path, mkNode_depth]; congr 1; omega
        · simp only [mkNode_depth]; omega
        · simp only [mkNode_depth]; omega
      · rw [itemsList_eq, List.mem_flatMap] at hit
        obtain ⟨k, hk, hit⟩ := hit
        obtain ⟨u, ps', h1, h2, h3, h4, h5⟩ := ih k hk _ _ _ it hit
        refine ⟨u, ps', .inside (by simpa using hk) h1, h2, by omega, by omega, ?_⟩
        intro _
        by_cases hd : it.node.depth = d + 1
        · rw [h4 hd]; simp
        · exact h5 (by omega)

end Traverse
