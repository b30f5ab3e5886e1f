import Verif.Proofs.Walk
namespace Traverse
variable {σ : Type}

theorem items_ancestor (c : Nav) (t : Tree) : ∀ ps pp d, ∀ a ∈ items c ps pp d t, ∀ p,
    (pp ++ [t.name]) <+: p → p <+: a.node.path → ∃ i ∈ items c ps pp d t, i.node.path = p := by
  induction t using Tree.ind with
  | h e re fs ds kids ih =>
    intro ps pp d a ha p h1 h2
    have htn : (Tree.node e re fs ds kids).name = e.name := rfl
    rw [htn] at h1
    simp only [items] at ha ⊢
    split at ha
    · simp at ha
    · rename_i hdeep
      rw [if_neg hdeep]
      by_cases hl : p.length = pp.length + 1
      · have : p = pp ++ [e.name] := (h1.eq_of_length (by simp [hl])).symm
        exact ⟨_, List.mem_cons_self .., by simp [this]⟩
      · rcases List.mem_cons.1 ha with rfl | ha
        · exfalso
          have a1 := h1.length_le
          have a2 := h2.length_le
          simp at a1 a2
          omega
        · rw [itemsList_eq, List.mem_flatMap] at ha
          obtain ⟨k, hk, ha⟩ := ha
          have hp := (items_path c k _ _ _ a ha).1
          have a1 := h1.length_le
          simp at a1
          have : (pp ++ [e.name] ++ [k.name]) <+: p :=
            List.prefix_of_prefix_length_le hp h2 (by simp; omega)
          obtain ⟨i, hi, hip⟩ := ih k hk _ _ _ a ha p this h2
          refine ⟨i, List.mem_cons_of_mem _ ?_, hip⟩
          rw [itemsList_eq, List.mem_flatMap]
          exact ⟨k, hk, hi⟩

/-- Visited nodes below a path are contiguous, for any sublist of the items. -/
theorem items_contiguous (c : Nav) (t : Tree) (hd : t.Distinct) (ps pp d) (p : Path) (a y b : Item)
    (hs : [a, y, b].Sublist (items c ps pp d t)) (ha : p <+: a.node.path) (hb : p <+: b.node.path) :
    p <+: y.node.path := by
  have hmem : ∀ i ∈ [a, y, b], i ∈ items c ps pp d t := fun i hi => hs.subset hi
  by_cases hp : (pp ++ [t.name]) <+: p
  · have hpo := items_preOrder c t hd ps pp d
    have hroot := items_ancestor c t ps pp d a (hmem a (by simp)) p hp ha
    -- split the list at a and b
    obtain ⟨l1, r, he, hr⟩ : ∃ l1 r, items c ps pp d t = l1 ++ a :: r ∧ [y, b].Sublist r := by
      obtain ⟨r1, r2, h1, h2, h3⟩ := List.cons_sublist_iff.1 hs
      obtain ⟨u, v, rfl⟩ := List.append_of_mem h2
      exact ⟨u, v ++ r2, by simp [h1], h3.trans (List.sublist_append_right _ _)⟩
    obtain ⟨l2, l3, he2, hy⟩ : ∃ l2 l3, r = l2 ++ b :: l3 ∧ y ∈ l2 := by
      obtain ⟨r1, r2, h1, h2, h3⟩ := List.cons_sublist_iff.1 hr
      obtain ⟨u, v, rfl⟩ := List.append_of_mem (List.singleton_sublist.1 h3)
      exact ⟨r1 ++ u, v, by simp [h1], by simp [h2]⟩
    exact hpo.contiguous p a b l2 l1 l3 (by rw [he, he2]) ha hb hroot y hy
  · -- p lies above the root
    have h1 := (items_path c t _ _ _ a (hmem a (by simp))).1
    have h2 := (items_path c t _ _ _ y (hmem y (by simp))).1
    rcases prefix_total ha h1 with h | h
    · exact h.trans h2
    · exact absurd h hp

/-- Removing everything more than `n` levels below. -/
def Tree.cut : Nat → Tree → Tree
  | 0, .node e re fs ds _ => .node e re fs ds []
  | n + 1, .node e re fs ds kids => .node e re fs ds (kids.map (Tree.cut n))

theorem travelLoop_deep (c : Nav) (env : Env σ) (ps pp) (ts : List Tree) (s : St σ)
    (h : tooDeep c s.depth = true) : travelLoop c env ps pp ts s = (.ret true none, s) := by
  induction ts with
  | nil => rfl
  | cons t ts ih =>
    cases t with
    | node e re fs ds kids => simp [travelLoop, traverse, h, ih]

theorem mkNode_congr (c c' : Nav) (h : c.sub = c'.sub) (ps p t t' d) (he : t.entry = t'.entry)
    (hf : t.files = t'.files) (hd : t.dirs = t'.dirs) : mkNode c ps p t d = mkNode c' ps p t' d := by
  cases c; cases c'; cases t; cases t'
  simp only [Tree.entry_node, Tree.files_node, Tree.dirs_node] at he hf hd h
  subst he hf hd h
  rfl

theorem enter_congr (c c' : Nav) (h : c.sub = c'.sub) (env : Env σ) (n re s) :
    enter c env n re s = enter c' env n re s := by
  simp only [enter, h]

theorem enter_depth (c : Nav) (env : Env σ) (n re) (s : St σ) : (enter c env n re s).2.depth = s.depth := by
  rcases h : enter c env n re s with ⟨a, s'⟩
  exact (enter_step c env ⟨n, re⟩ s a s' h).1

theorem traverse_depth (c : Nav) (env : Env σ) (ps pp t) (s : St σ) :
    (traverse c env ps pp t s).2.depth = s.depth := by
  obtain ⟨vs, h, _⟩ := traverse_ok c env (s.depth - 1) t ps pp s (by omega)
  exact h

theorem travelLoop_depth (c : Nav) (env : Env σ) (ps pp ts) (s : St σ) :
    (travelLoop c env ps pp ts s).2.depth = s.depth := by
  obtain ⟨vs, h, _⟩ := travelLoop_ok c env (s.depth - 1) ts (fun k _ => traverse_ok c env _ k) ps pp s (by omega)
  exact h

/-- A traversal limited to depth `n` is the unlimited traversal of the tree cut at depth `n`. -/
theorem traverse_cut (c : Nav) (env : Env σ) (n : Nat) (hn : 0 < n) (t : Tree) :
    ∀ ps pp (s : St σ) (k : Nat), s.depth + k = n →
      traverse { c with maxDepth := n } env ps pp t s =
      traverse { c with maxDepth := 0 } env ps pp (t.cut k) s := by
  induction t using Tree.ind with
  | h e re fs ds kids ih =>
    intro ps pp s k hk
    have h1 : tooDeep { c with maxDepth := n } s.depth = false := by
      simp only [tooDeep]
      have : ¬ ((n : Int) < s.depth) := by omega
      simp [this]
    have h2 : ∀ d, tooDeep { c with maxDepth := 0 } d = false := by intro d; simp [tooDeep]
    have hloop : ∀ ts : List Tree, (∀ t ∈ ts, t ∈ kids) → ∀ ps pp (s : St σ) (k : Nat), s.depth + k = n →
        travelLoop { c with maxDepth := n } env ps pp ts s =
        travelLoop { c with maxDepth := 0 } env ps pp (ts.map (Tree.cut k)) s := by
      intro ts
      induction ts with
      | nil => intro _ ps pp s k _; rfl
      | cons t ts ihl =>
        intro hts ps pp s k hk
        have ht := ih t (hts t (by simp)) ps pp s k hk
        have ihl := fun s' => ihl (fun x hx => hts x (by simp [hx])) ps pp s' k
        simp only [List.map_cons, travelLoop]
        rw [ht]
        have hdep := traverse_depth { c with maxDepth := 0 } env ps pp (t.cut k) s
        rcases hT : traverse { c with maxDepth := 0 } env ps pp (t.cut k) s with ⟨o, s'⟩
        rw [hT] at hdep
        have ihl' := ihl s' (by simp only at hdep; omega)
        rcases o with ⟨_ | _, _ | _⟩ | _ <;> simp only [ihl']
    cases k with
    | zero =>
      simp only [Tree.cut, traverse, h1, h2, Bool.false_eq_true, if_false]
      have hd : (s.doDescend env (pp ++ [e.name]) e.isDir).depth = s.depth + 1 := rfl
      rw [mkNode_congr { c with maxDepth := n } { c with maxDepth := 0 } rfl ps _ (.node e re fs ds kids)
        (.node e re fs ds []) _ rfl rfl rfl]
      rw [enter_congr { c with maxDepth := n } { c with maxDepth := 0 } rfl]
      have hre : readErrOf { c with maxDepth := n } (.node e re fs ds kids) =
        readErrOf { c with maxDepth := 0 } (.node e re fs ds []) := rfl
      rw [hre]
      have hed := enter_depth { c with maxDepth := 0 } env
        (mkNode { c with maxDepth := 0 } ps (pp ++ [e.name]) (.node e re fs ds []) (s.doDescend env (pp ++ [e.name]) e.isDir).depth)
        (readErrOf { c with maxDepth := 0 } (.node e re fs ds [])) (s.doDescend env (pp ++ [e.name]) e.isDir)
      rcases hE : enter { c with maxDepth := 0 } env _ _ (s.doDescend env (pp ++ [e.name]) e.isDir) with ⟨a, s'⟩
      rw [hE] at hed
      cases a with
      | done o => rfl
      | travel =>
        simp only
        rw [travelLoop_deep { c with maxDepth := n }]
        · rfl
        · simp only [tooDeep]
          simp only at hed
          rw [hed, hd]
          have : (n : Int) < s.depth + 1 := by omega
          simp [this, hn]
    | succ k =>
      simp only [Tree.cut, traverse, h1, h2, Bool.false_eq_true, if_false]
      have hd : (s.doDescend env (pp ++ [e.name]) e.isDir).depth = s.depth + 1 := rfl
      rw [mkNode_congr { c with maxDepth := n } { c with maxDepth := 0 } rfl ps _ (.node e re fs ds kids)
        (.node e re fs ds (kids.map (Tree.cut k))) _ rfl rfl rfl]
      rw [enter_congr { c with maxDepth := n } { c with maxDepth := 0 } rfl]
      have hre : readErrOf { c with maxDepth := n } (.node e re fs ds kids) =
        readErrOf { c with maxDepth := 0 } (.node e re fs ds (kids.map (Tree.cut k))) := rfl
      rw [hre]
      have hed := enter_depth { c with maxDepth := 0 } env
        (mkNode { c with maxDepth := 0 } ps (pp ++ [e.name]) (.node e re fs ds (kids.map (Tree.cut k))) (s.doDescend env (pp ++ [e.name]) e.isDir).depth)
        (readErrOf { c with maxDepth := 0 } (.node e re fs ds (kids.map (Tree.cut k)))) (s.doDescend env (pp ++ [e.name]) e.isDir)
      rcases hE : enter { c with maxDepth := 0 } env _ _ (s.doDescend env (pp ++ [e.name]) e.isDir) with ⟨a, s'⟩
      rw [hE] at hed
      cases a with
      | done o => rfl
      | travel =>
        simp only at hed ⊢
        rw [hloop kids (fun _ h => h) _ _ s' k (by omega)]

/-- The items of a limited traversal are the items of the unlimited one at depth at most the limit. -/
theorem items_limit (c : Nav) (n : Nat) (hn : 0 < n) (t : Tree) : ∀ ps pp d,
    items { c with maxDepth := n } ps pp d t =
    (items { c with maxDepth := 0 } ps pp d t).filter (fun i => decide (i.node.depth ≤ (n : Int))) := by
  induction t using Tree.ind with
  | h e re fs ds kids ih =>
    intro ps pp d
    have h2 : ∀ d, tooDeep { c with maxDepth := 0 } d = false := by intro d; simp [tooDeep]
    by_cases hd : (n : Int) < d
    · have h1 : tooDeep { c with maxDepth := n } d = true := by simp [tooDeep, hd, hn]
      have : items { c with maxDepth := n } ps pp d (.node e re fs ds kids) = [] := by simp [items, h1]
      rw [this]
      symm
      rw [List.filter_eq_nil_iff]
      intro i hi
      have := items_depth { c with maxDepth := 0 } _ _ _ _ i hi
      simp; omega
    · have h1 : tooDeep { c with maxDepth := n } d = false := by simp [tooDeep, hd]
      simp only [items, h1, h2, Bool.false_eq_true, if_false]
      rw [List.filter_cons]
      have hmk : mkNode { c with maxDepth := n } ps (pp ++ [e.name]) (.node e re fs ds kids) (d + 1) =
        mkNode { c with maxDepth := 0 } ps (pp ++ [e.name]) (.node e re fs ds kids) (d + 1) := rfl
      rw [hmk]
      have hpos : decide ((mkNode { c with maxDepth := 0 } ps (pp ++ [e.name]) (.node e re fs ds kids) (d + 1)).depth ≤ (n : Int)) = true := by
        simp; omega
      simp only [hpos, if_true]
      congr 1
      rw [itemsList_eq, itemsList_eq, List.filter_flatMap]
      generalize (mkNode { c with maxDepth := 0 } ps (pp ++ [e.name]) (.node e re fs ds kids) (d + 1)).toNodeInfo :: ps = ps'
      have : ∀ ks : List Tree, (∀ k ∈ ks, k ∈ kids) →
          ks.flatMap (items { c with maxDepth := n } ps' (pp ++ [e.name]) (d + 1)) =
          ks.flatMap (fun a => (items { c with maxDepth := 0 } ps' (pp ++ [e.name]) (d + 1) a).filter (fun i => decide (i.node.depth ≤ (n : Int)))) := by
        intro ks
        induction ks with
        | nil => intro _; rfl
        | cons k ks ihk =>
          intro hks
          rw [List.flatMap_cons, List.flatMap_cons, ih k (hks k (by simp)), ihk (fun x hx => hks x (by simp [hx]))]
      exact this kids (fun _ h => h)

theorem prep_limit (c : Nav) (n : Nat) (f : FS) : prep { c with maxDepth := n } f = prep c f := by
  induction f using FS.ind with
  | hf n ie re => rfl
  | hd n' ie re kids ih =>
    rw [prep_dir, prep_dir]
    have : kids.map (prep { c with maxDepth := n }) = kids.map (prep c) := List.map_congr_left ih
    rw [this]; rfl

theorem prep_files_universal (c : Nav) (f : FS) :
    prep { c with sub := .files } f = prep { c with sub := .universal } f := by
  induction f using FS.ind with
  | hf n ie re => rfl
  | hd n' ie re kids ih =>
    rw [prep_dir, prep_dir]
    have : kids.map (prep { c with sub := .files }) = kids.map (prep { c with sub := .universal }) :=
      List.map_congr_left ih
    rw [this]; rfl

theorem flatMap_congr' {α β} {f g : α → List β} {l : List α} (h : ∀ x ∈ l, f x = g x) :
    l.flatMap f = l.flatMap g := by
  induction l with
  | nil => rfl
  | cons x xs ih => rw [List.flatMap_cons, List.flatMap_cons, h x (by simp), ih (fun y hy => h y (by simp [hy]))]

theorem items_files_universal (c : Nav) (t : Tree) : ∀ ps pp d,
    items { c with sub := .files } ps pp d t = items { c with sub := .universal } ps pp d t := by
  induction t using Tree.ind with
  | h e re fs ds kids ih =>
    intro ps pp d
    simp only [items]
    have h1 : tooDeep { c with sub := .files } d = tooDeep { c with sub := .universal } d := rfl
    have h2 : mkNode { c with sub := .files } ps (pp ++ [e.name]) (.node e re fs ds kids) (d + 1) =
      mkNode { c with sub := .universal } ps (pp ++ [e.name]) (.node e re fs ds kids) (d + 1) := rfl
    have h3 : readErrOf { c with sub := .files } (.node e re fs ds kids) =
      readErrOf { c with sub := .universal } (.node e re fs ds kids) := rfl
    rw [h1, h2, h3, itemsList_eq, itemsList_eq]
    have : ∀ ps' pp', kids.flatMap (items { c with sub := .files } ps' pp' (d + 1)) =
        kids.flatMap (items { c with sub := .universal } ps' pp' (d + 1)) := by
      intro ps' pp'
      exact flatMap_congr' (fun k hk => ih k hk _ _ _)
    rw [this]

/-- The directories met by the Directories navigators are those met by the Universal one, with the
same data. -/
theorem items_dirs (c : Nav) (hs : SortByEntries c) (hr : c.read = defaultRead) (sub : Subscription)
    (hsub : sub = .directories ∨ sub = .directoriesWithFiles) (f : FS) : f.isDir = true → ∀ ps pp d,
    (items { c with sub := sub } ps pp d (prep { c with sub := sub } f)).map (·.node.toNodeInfo) =
    ((items { c with sub := .universal } ps pp d (prep { c with sub := .universal } f)).filter
      (fun i => i.node.isDir)).map (·.node.toNodeInfo) := by
  obtain ⟨sub0, ff, md, rd, so⟩ := c
  simp only at hr
  subst hr
  replace hs : ∀ ps : List (Tree × Tree), (∀ p ∈ ps, p.1.entry = p.2.entry) →
    ∃ qs : List (Tree × Tree), qs.Perm ps ∧ so (ps.map Prod.fst) = qs.map Prod.fst ∧
      so (ps.map Prod.snd) = qs.map Prod.snd := hs
  have hperm : ∀ l, (so l).Perm l := by
    intro l
    obtain ⟨qs, hq, h1, _⟩ := hs (l.map (fun t => (t, t))) (by simp)
    simp only [List.map_map] at h1
    have e1 : (Prod.fst ∘ fun t : Tree => (t, t)) = id := rfl
    rw [e1, List.map_id] at h1
    rw [h1]
    refine (hq.map Prod.fst).trans ?_
    rw [List.map_map, e1, List.map_id]
  induction f using FS.ind with
  | hf n ie re => intro h; simp [FS.isDir] at h
  | hd n ie re kids ih =>
    intro _ ps pp d
    rw [prep_dir, prep_dir]
    -- the directory entries, prepared both ways
    cases re with
    | some x =>
      have hnil : so [] = [] := by have := hperm []; exact List.perm_nil.1 this
      have h1 : arrange (⟨sub, ff, md, defaultRead, so⟩ : Nav) ⟨n, true, ie⟩ (some x) (kids.map (prep (⟨sub, ff, md, defaultRead, so⟩ : Nav))) =
          .node ⟨n, true, ie⟩ (some x) [] [] [] := by
        simp only [arrange, defaultRead]
        rcases hsub with h | h <;> subst h <;> simp [hnil]
      have h2 : arrange (⟨.universal, ff, md, defaultRead, so⟩ : Nav) ⟨n, true, ie⟩ (some x) (kids.map (prep (⟨.universal, ff, md, defaultRead, so⟩ : Nav))) =
          .node ⟨n, true, ie⟩ (some x) [] [] [] := by
        simp [arrange, defaultRead, hnil]
      rw [h1, h2]
      simp only [items, itemsList]
      have h3 : tooDeep (⟨sub, ff, md, defaultRead, so⟩ : Nav) d = tooDeep (⟨.universal, ff, md, defaultRead, so⟩ : Nav) d := rfl
      rw [h3]
      split <;> simp [Tree.isDir, mkNode]
    | none =>
      let ds := (kids.filter (fun f => f.name != ".DS_Store")).filter (fun f => f.isDir)
      let pr : List (Tree × Tree) := ds.map (fun f => (prep (⟨.universal, ff, md, defaultRead, so⟩ : Nav) f, prep (⟨sub, ff, md, defaultRead, so⟩ : Nav) f))
      have hpe : ∀ p ∈ pr, p.1.entry = p.2.entry := by
        intro p hp
        obtain ⟨f, hf, rfl⟩ := List.mem_map.1 hp
        cases f with
        | file => rfl
        | dir => simp only [prep_dir, arrange_entry]
      obtain ⟨qs, hq, hq1, hq2⟩ := hs pr hpe
      have hfilt : ∀ (c' : Nav), ((kids.map (prep c')).filter (fun t => t.name != ".DS_Store")).filter (fun t => t.isDir) =
          ds.map (prep c') := by
        intro c'
        rw [List.filter_map, List.filter_map]
        congr 1
        simp only [ds]
        congr 1
        · funext f; simp [(prep_entry c' f).2]
        · apply List.filter_congr; intro f _; simp [(prep_entry c' f).1]
      have hfilt2 : ∀ (c' : Nav), ∀ t ∈ ((kids.map (prep c')).filter (fun t => t.name != ".DS_Store")).filter (fun t => !t.isDir),
          t.isDir = false ∧ t.kids = [] := by
        intro c' t ht
        have h1 := (List.mem_filter.1 ht).2
        have h2 := (List.mem_filter.1 ((List.mem_filter.1 ht).1)).1
        obtain ⟨f, hf, rfl⟩ := List.mem_map.1 h2
        have h3 : (prep c' f).isDir = false := by simpa using h1
        refine ⟨h3, ?_⟩
        cases f with
        | file => simp [prep]
        | dir => rw [(prep_entry c' _).2] at h3; simp [FS.isDir] at h3
      have e1 : pr.map Prod.fst = ds.map (prep (⟨.universal, ff, md, defaultRead, so⟩ : Nav)) := by
        simp only [pr, List.map_map]; rfl
      have e2 : pr.map Prod.snd = ds.map (prep (⟨sub, ff, md, defaultRead, so⟩ : Nav)) := by
        simp only [pr, List.map_map]; rfl
      rw [e1] at hq1
      rw [e2] at hq2
      have hent : (qs.map Prod.fst).map Tree.entry = (qs.map Prod.snd).map Tree.entry := by
        rw [List.map_map, List.map_map]
        apply List.map_congr_left
        intro q hqm
        exact hpe q (hq.mem_iff.1 hqm)
      -- the two arranged nodes
      generalize hA : arrange (⟨sub, ff, md, defaultRead, so⟩ : Nav) ⟨n, true, ie⟩ none (kids.map (prep (⟨sub, ff, md, defaultRead, so⟩ : Nav))) = A
      generalize hB : arrange (⟨.universal, ff, md, defaultRead, so⟩ : Nav) ⟨n, true, ie⟩ none (kids.map (prep (⟨.universal, ff, md, defaultRead, so⟩ : Nav))) = B
      have hAk : A.kids = qs.map Prod.snd ∧ A.dirs = (qs.map Prod.snd).map Tree.entry ∧ A.entry = ⟨n, true, ie⟩ := by
        rw [← hA]
        refine ⟨?_, ?_, arrange_entry _ _ _ _⟩
        · rw [arrange_kids_dirs _ _ _ _ hsub]
          simp only [defaultRead]
          rw [hfilt, hq2]
        · have : (arrange (⟨sub, ff, md, defaultRead, so⟩ : Nav) ⟨n, true, ie⟩ none (kids.map (prep (⟨sub, ff, md, defaultRead, so⟩ : Nav)))).dirs =
              (so (((kids.map (prep (⟨sub, ff, md, defaultRead, so⟩ : Nav))).filter (fun t => t.name != ".DS_Store")).filter (fun t => t.isDir))).map Tree.entry := by
            simp only [arrange, defaultRead]
            rcases hsub with h | h <;> subst h <;> rfl
          rw [this, hfilt, hq2]
      let fl := so (((kids.map (prep (⟨.universal, ff, md, defaultRead, so⟩ : Nav))).filter (fun t => t.name != ".DS_Store")).filter (fun t => !t.isDir))
      have hfl : ∀ t ∈ fl, t.isDir = false ∧ t.kids = [] := by
        intro t ht
        exact hfilt2 _ t ((hperm _).mem_iff.1 ht)
      have hBk : B.kids = (if ff then fl ++ qs.map Prod.fst else qs.map Prod.fst ++ fl) ∧
          B.dirs = (qs.map Prod.fst).map Tree.entry ∧ B.entry = ⟨n, true, ie⟩ := by
        rw [← hB]
        refine ⟨?_, ?_, arrange_entry _ _ _ _⟩
        · simp only [arrange, defaultRead, hfilt, hq1, Tree.kids_node, fl]
        · simp only [arrange, defaultRead, hfilt, hq1, Tree.dirs_node]
      obtain ⟨ea, ra, fa, da, ka⟩ := A
      obtain ⟨eb, rb, fb, db, kb⟩ := B
      simp only [Tree.kids_node, Tree.dirs_node, Tree.entry_node] at hAk hBk
      obtain ⟨rfl, rfl, rfl⟩ := hAk
      obtain ⟨hkb, rfl, rfl⟩ := hBk
      simp only [items]
      have h3 : tooDeep (⟨sub, ff, md, defaultRead, so⟩ : Nav) d = tooDeep (⟨.universal, ff, md, defaultRead, so⟩ : Nav) d := rfl
      rw [h3]
      split
      · rfl
      · have hni : (mkNode (⟨sub, ff, md, defaultRead, so⟩ : Nav) ps (pp ++ [n]) (.node ⟨n, true, ie⟩ ra fa ((qs.map Prod.snd).map Tree.entry) (qs.map Prod.snd)) (d + 1)).toNodeInfo =
            (mkNode (⟨.universal, ff, md, defaultRead, so⟩ : Nav) ps (pp ++ [n]) (.node ⟨n, true, ie⟩ rb fb ((qs.map Prod.fst).map Tree.entry) kb) (d + 1)).toNodeInfo := by
          simp only [mkNode, Tree.isDir, Tree.entry_node, Tree.dirs_node, hent]
        have hdirT : ∀ ps' (c' : Nav) p (t : Tree) d', t.isDir = true → (mkNode c' ps' p t d').isDir = true := by
          intro ps' c' p t d' h; exact h
        rw [List.filter_cons, if_pos (hdirT _ _ _ _ _ rfl), List.map_cons, List.map_cons, hni]
        congr 1
        generalize (mkNode (⟨.universal, ff, md, defaultRead, so⟩ : Nav) ps (pp ++ [n]) (.node ⟨n, true, ie⟩ rb fb ((qs.map Prod.fst).map Tree.entry) kb) (d + 1)).toNodeInfo :: ps = ps'
        -- files contribute nothing
        have hfiles : ((itemsList (⟨.universal, ff, md, defaultRead, so⟩ : Nav) ps' (pp ++ [n]) (d + 1) fl).filter (fun i => i.node.isDir)) = [] := by
          rw [List.filter_eq_nil_iff]
          intro i hi
          rw [itemsList_eq, List.mem_flatMap] at hi
          obtain ⟨t, ht, hi⟩ := hi
          obtain ⟨g1, g2⟩ := hfl t ht
          cases t with
          | node e re fs ds kids =>
            simp only [Tree.kids_node] at g2
            subst g2
            simp only [items, itemsList] at hi
            split at hi
            · simp at hi
            · simp only [List.mem_singleton] at hi
              subst hi
              simpa using g1
        have hdirs : ∀ ks : List (Tree × Tree), (∀ q ∈ ks, q ∈ qs) →
            (itemsList (⟨sub, ff, md, defaultRead, so⟩ : Nav) ps' (pp ++ [n]) (d + 1) (ks.map Prod.snd)).map (·.node.toNodeInfo) =
            ((itemsList (⟨.universal, ff, md, defaultRead, so⟩ : Nav) ps' (pp ++ [n]) (d + 1) (ks.map Prod.fst)).filter (fun i => i.node.isDir)).map (·.node.toNodeInfo) := by
          intro ks
          induction ks with
          | nil => intro _; rfl
          | cons q ks ihk =>
            intro hks
            simp only [List.map_cons, itemsList, List.map_append, List.filter_append]
            rw [ihk (fun x hx => hks x (by simp [hx]))]
            congr 1
            have hqm := hq.mem_iff.1 (hks q (by simp))
            obtain ⟨f, hf, rfl⟩ := List.mem_map.1 hqm
            have hf1 := List.mem_filter.1 hf
            have hf2 := List.mem_filter.1 hf1.1
            exact ih f hf2.1 hf1.2 _ _ _
        rw [hdirs qs (fun _ h => h), hkb]
        have happ : ∀ (c' : Nav) a b, itemsList c' ps' (pp ++ [n]) (d + 1) (a ++ b) =
            itemsList c' ps' (pp ++ [n]) (d + 1) a ++ itemsList c' ps' (pp ++ [n]) (d + 1) b := by
          intro c' a b; simp [itemsList_eq]
        split
        · rw [happ, List.filter_append, hfiles, List.nil_append]
        · rw [happ, List.filter_append, hfiles, List.append_nil]

end Traverse
