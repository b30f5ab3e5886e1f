import Verif.Proofs.Enumerate
namespace Traverse
variable {σ : Type}

theorem mem_acts {l : List Ev} {ev : Ev} (h : ev ∈ acts l) : ev ∈ l := (List.mem_filter.1 h).1
theorem mem_acts_iff {l : List Ev} {ev : Ev} (h : ev.isAct = true) : ev ∈ acts l ↔ ev ∈ l := by
  simp [acts, List.mem_filter, h]

theorem mem_calls {l : List Ev} {n r} : (n, r) ∈ calls l ↔ Ev.invoke n r ∈ l := by
  simp only [calls, List.mem_filterMap]
  constructor
  · rintro ⟨ev, hev, h⟩
    cases ev <;> simp at h
    obtain ⟨rfl, rfl⟩ := h; exact hev
  · intro h; exact ⟨_, h, rfl⟩

theorem items0_readErr (c : Nav) (hs : SortPermutes c) (hr : c.read = defaultRead) (f : FS) :
    f.Readable → ∀ ps pp d, ∀ it ∈ items c ps pp d (prep c f), it.node.isDir = true → it.readErr = none := by
  have hro : ∀ ts : List FS, FS.ReadableL ts → ∀ t ∈ ts, t.Readable := by
    intro ts
    induction ts with
    | nil => simp
    | cons t ts ih =>
      intro h x hx
      rcases List.mem_cons.1 hx with rfl | hx
      · exact h.1
      · exact ih h.2 x hx
  induction f using FS.ind with
  | hf n ie re =>
    intro _ ps pp d it hit hd
    simp only [prep, items] at hit
    split at hit
    · simp at hit
    · simp only [itemsList, List.mem_singleton] at hit
      subst hit
      simp [Tree.isDir] at hd
  | hd n ie re kids ih =>
    intro ⟨h1, h2⟩ ps pp d it hit hd
    subst h1
    rw [prep_dir] at hit
    obtain ⟨l, hl, hsub⟩ := arrange_kids_select c hs (defaultRead_selects c hr) ⟨n, true, ie⟩ none (kids.map (prep c))
    have hre : (arrange c ⟨n, true, ie⟩ none (kids.map (prep c))).readErr = none := by
      simp only [arrange, hr, defaultRead]
      cases c.sub <;> rfl
    generalize hT : arrange c ⟨n, true, ie⟩ none (kids.map (prep c)) = T at hl hre hit
    cases T with
    | node e re fs ds ks =>
      simp only [Tree.kids_node] at hl
      simp only [Tree.readErr_node] at hre
      subst hre
      simp only [items] at hit
      split at hit
      · simp at hit
      · rcases List.mem_cons.1 hit with rfl | hit
        · simp [readErrOf]
        · rw [itemsList_eq, List.mem_flatMap] at hit
          obtain ⟨k, hk, hit⟩ := hit
          obtain ⟨f, hf, rfl⟩ := List.mem_map.1 (hsub.subset (hl.mem_iff.2 hk))
          exact ih f hf (hro kids h2 f hf) _ _ _ it hit hd

/-- With a handler that always returns nil and the default skip handler everything is presented. -/
theorem walk_accepting (c : Nav) (env : Env σ) (x : σ) (pre : Path) (fs : FS)
    (hs : SortPermutes c) (hr : ReadSelects c) (hi : AlwaysNil env) (ha : DefaultSkip env) (hd : fs.Distinct)
    (hdef : c.sub = .files → c.read = defaultRead) :
    invoked (walk c env x pre fs).2.log =
      ((items c [] pre 0 (prep c fs)).map (·.node)).filter (fun n => !(decide (c.sub = .files) && n.isDir)) ∧
    (walk c env x pre fs).1 = .done none := by
  have hrun := walk_run c env x pre fs
  have hfrom := walk_from c env x pre fs
  have := hrun.accepting
    (by
      intro n r hm
      obtain ⟨y, hy⟩ := hfrom _ (mem_acts hm)
      rw [← hy]; exact hi y n)
    (by
      intro n re sk e hm
      obtain ⟨y, hy⟩ := hfrom _ (mem_acts hm)
      rw [ha y n re] at hy
      simp only [Prod.mk.injEq] at hy
      exact ⟨hy.1.symm, hy.2.symm⟩)
    (fun h => items0_shut c hs (hdef h) fs hd _ _ _)
    (fun _ it hit hn it' hit' => items_leaf c _ (prep_wf c hs hr fs) (prep_distinct c hs hr fs hd) _ _ _ it hit hn it' hit')
    (items_preOrder c _ (prep_distinct c hs hr fs hd) _ _ _)
    (fun it hit => items_depth c _ _ _ _ it hit)
    (items_root c _ _ _ _)
  rwa [invoked_acts] at this

theorem sublist_pair_flatMap {α β} {f : α → List β} {l : List α} {i j : β}
    (h : [i, j].Sublist (l.flatMap f)) :
    (∃ k ∈ l, [i, j].Sublist (f k)) ∨ (∃ k k', [k, k'].Sublist l ∧ i ∈ f k ∧ j ∈ f k') := by
  induction l with
  | nil => simp at h
  | cons x xs ih =>
    rw [List.flatMap_cons] at h
    obtain ⟨l1, l2, he, h1, h2⟩ := List.sublist_append_iff.1 h
    match l1, he with
    | [], he =>
      simp at he; subst he
      rcases ih h2 with ⟨k, hk, h⟩ | ⟨k, k', hk, h⟩
      · exact Or.inl ⟨k, by simp [hk], h⟩
      · exact Or.inr ⟨k, k', hk.cons _, h⟩
    | [a], he =>
      simp at he; obtain ⟨rfl, rfl⟩ := he
      have hj : j ∈ xs.flatMap f := h2.subset (by simp)
      obtain ⟨k', hk', hj⟩ := List.mem_flatMap.1 hj
      refine Or.inr ⟨x, k', ?_, h1.subset (by simp), hj⟩
      exact (List.singleton_sublist.2 hk').cons_cons x
    | [a, b], he =>
      simp at he; obtain ⟨rfl, rfl, rfl⟩ := he
      exact Or.inl ⟨x, by simp, h1⟩
    | a :: b :: c :: r, he => simp at he

inductive Tree.At : Path → Tree → Path → Tree → Prop
  | here (pp : Path) (t : Tree) : Tree.At pp t (pp ++ [t.name]) t
  | inside {pp : Path} {t : Tree} {k : Tree} {p : Path} {u : Tree}
      (hk : k ∈ t.kids) (h : Tree.At (pp ++ [t.name]) k p u) : Tree.At pp t p u

theorem Tree.At.prep {c : Nav} (hs : SortPermutes c) (hr : ReadSelects c) {pp t p u} (h : Tree.At pp t p u) :
    ∀ f, t = prep c f → ∃ g, FS.At pp f p g ∧ u = Traverse.prep c g := by
  induction h with
  | here pp t =>
    intro f hf
    subst hf
    rw [(prep_entry c f).1]
    exact ⟨f, .here pp f, rfl⟩
  | @inside pp t k p u hk h ih =>
    intro f hf
    subst hf
    cases f with
    | file n ie re => simp [Traverse.prep] at hk
    | dir n ie re kids =>
      have hn := (prep_entry c (.dir n ie re kids)).1
      rw [prep_dir] at hk
      obtain ⟨l, hl, hsub⟩ := arrange_kids_select c hs hr ⟨n, true, ie⟩ re (kids.map (Traverse.prep c))
      obtain ⟨f, hf, rfl⟩ := List.mem_map.1 (hsub.subset (hl.mem_iff.2 hk))
      obtain ⟨g, hg, rfl⟩ := ih f rfl
      rw [hn] at hg
      exact ⟨g, .inside hf hg, rfl⟩

theorem prefix_of_snoc {a p : Path} {x : String} (h : a <+: p ++ [x]) (hl : a.length ≤ p.length) : a <+: p :=
  List.prefix_of_prefix_length_le h (List.prefix_append p [x]) hl

theorem items_sibling_order (c : Nav) (t : Tree) : t.Distinct → ∀ ps pp d (i j : Item) p x y,
    [i, j].Sublist (items c ps pp d t) → i.node.path = p ++ [x] → j.node.path = p ++ [y] → (pp ++ [t.name]) <+: p →
    ∃ u, Tree.At pp t p u ∧ [x, y].Sublist (u.kids.map Tree.name) := by
  induction t using Tree.ind with
  | h e re fs ds kids ih =>
    intro hdist ps pp d i j p x y hsub hi hj hp
    have hpo := items_preOrder c _ hdist ps pp d
    obtain ⟨hnd, hdl⟩ := hdist
    rw [Tree.distinctL_iff] at hdl
    have htn : (Tree.node e re fs ds kids).name = e.name := rfl
    rw [htn] at hp
    have hpl := hp.length_le
    simp only [List.length_append, List.length_singleton] at hpl
    simp only [items] at hsub hpo
    split at hsub
    · simp at hsub
    · rename_i hdeep
      rw [if_neg hdeep] at hpo
      generalize hps : (mkNode c ps (pp ++ [e.name]) (.node e re fs ds kids) (d + 1)).toNodeInfo :: ps = ps' at hsub hpo
      -- neither i nor j is the root of this subtree
      have hsub' : [i, j].Sublist (itemsList c ps' (pp ++ [e.name]) (d + 1) kids) := by
        cases hsub with
        | cons _ h => exact h
        | cons_cons _ h =>
          exfalso
          have h2 := congrArg List.length hi
          simp at h2
          omega
      rw [itemsList_eq] at hsub'
      rcases sublist_pair_flatMap hsub' with ⟨k, hk, h⟩ | ⟨k, k', hk, hik, hjk⟩
      · -- both below the same entry
        have hik := (items_path c k _ _ _ i (h.subset (by simp))).1
        have hjk := (items_path c k _ _ _ j (h.subset (by simp))).1
        rw [hi] at hik
        rw [hj] at hjk
        by_cases hlen : p.length = pp.length + 1
        · exfalso
          have hpe : p = pp ++ [e.name] := (hp.eq_of_length (by simp [hlen])).symm
          subst hpe
          have h1 := hik.eq_of_length (by simp)
          have h2 := hjk.eq_of_length (by simp)
          have hpw := (items_preOrder c k (hdl k hk) ps' (pp ++ [e.name]) (d + 1)).pairwise.sublist h
          simp only [List.pairwise_cons] at hpw
          exact hpw.1 j (by simp) (by rw [hi, hj, ← h1, ← h2]; exact List.prefix_refl _)
        · have hpk : (pp ++ [e.name] ++ [k.name]) <+: p := prefix_of_snoc hik (by simp; omega)
          obtain ⟨u, e1, e2⟩ := ih k hk (hdl k hk) _ _ _ i j p x y h hi hj hpk
          exact ⟨u, .inside hk (by rw [htn]; exact e1), e2⟩
      · have hik := (items_path c k _ _ _ i hik).1
        have hjk := (items_path c k' _ _ _ j hjk).1
        rw [hi] at hik
        rw [hj] at hjk
        have hnames : [k.name, k'.name].Sublist (kids.map Tree.name) := by simpa using hk.map Tree.name
        have hne : k.name ≠ k'.name := by
          have := hnd.sublist hnames
          simpa using this
        have hlen : p.length = pp.length + 1 := by
          by_cases hlen : p.length = pp.length + 1
          · exact hlen
          · exfalso
            have a1 : (pp ++ [e.name] ++ [k.name]) <+: p := prefix_of_snoc hik (by simp; omega)
            have a2 : (pp ++ [e.name] ++ [k'.name]) <+: p := prefix_of_snoc hjk (by simp; omega)
            exact hne (prefix_snoc_inj a1 a2)
        have hpe : p = pp ++ [e.name] := (hp.eq_of_length (by simp [hlen])).symm
        subst hpe
        have h1 := hik.eq_of_length (by simp)
        have h2 := hjk.eq_of_length (by simp)
        have h1 : k.name = x := by simpa using h1
        have h2 : k'.name = y := by simpa using h2
        refine ⟨.node e re fs ds kids, .here _ _, ?_⟩
        rw [← h1, ← h2]; exact hnames

theorem visitOrder_eq (c : Nav) (g : FS) : (prep c g).kids.map Tree.name = visitOrder c g := by
  cases g with
  | file n ie re => simp [prep, visitOrder]
  | dir n ie re kids =>
    rw [prep_dir, visitOrder]
    simp only [arrange]
    cases c.sub <;> simp <;> split <;> simp

/-- Items at or below a path are contiguous. -/
theorem PreOrder.contiguous {l : List Item} (h : PreOrder l) (p : Path) (a b : Item) (l2 l1 l3 : List Item)
    (he : l = l1 ++ a :: (l2 ++ b :: l3)) (ha : p <+: a.node.path) (hb : p <+: b.node.path)
    (hroot : ∃ i ∈ l, i.node.path = p) : ∀ y ∈ l2, p <+: y.node.path := by
  intro y hy
  subst he
  -- the item at `p` comes no later than `a`
  have hpw := h.pairwise
  obtain ⟨i, hi, hip⟩ := hroot
  have key : ∀ (l1 rest : List Item) , PreOrder (l1 ++ rest) → (∃ i ∈ l1, i.node.path = p) → ∀ x ∈ rest,
      ¬ p <+: x.node.path → ∀ z, [x, z].Sublist rest → ¬ p <+: z.node.path := by
    intro l1
    induction l1 with
    | nil => intro rest _ h; simp at h
    | cons q l1 ihq =>
      intro rest hpre hex x hx hnx z hz hpz
      rw [List.cons_append] at hpre
      by_cases hq : q.node.path = p
      · -- below q: take/drop
        obtain ⟨A, B, C⟩ := hpre
        have hz' : [x, z].Sublist (l1 ++ rest) := hz.trans (List.sublist_append_right _ _)
        rw [← List.takeWhile_append_dropWhile (p := fun j : Item => decide (q.node.depth < j.node.depth)) (l := l1 ++ rest)] at hz'
        obtain ⟨u, v, huv, hu, hv⟩ := List.sublist_append_iff.1 hz'
        match u, huv with
        | [], huv =>
          simp at huv; subst huv
          exact (B z (hv.subset (by simp))).1 (by rw [hq]; exact hpz)
        | u :: us, huv =>
          simp at huv
          obtain ⟨rfl, _⟩ := huv
          exact hnx (by rw [← hq]; exact (A _ (hu.subset (by simp))).1)
      · refine ihq rest hpre.2.2 ?_ x hx hnx z hz hpz
        obtain ⟨i, hi, hip⟩ := hex
        rcases List.mem_cons.1 hi with rfl | hi
        · exact absurd hip hq
        · exact ⟨i, hi, hip⟩
  by_cases hny : p <+: y.node.path
  · exact hny
  · exfalso
    have hmem : ∃ i ∈ l1 ++ [a], i.node.path = p := by
      have hi' : i ∈ (l1 ++ [a]) ++ (l2 ++ b :: l3) := by simpa using hi
      rcases List.mem_append.1 hi' with hi' | hi'
      · exact ⟨i, hi', hip⟩
      · exfalso
        have hpw' : ((l1 ++ [a]) ++ (l2 ++ b :: l3)).Pairwise (fun i j => ¬ j.node.path <+: i.node.path) := by
          simpa using hpw
        rw [List.pairwise_append] at hpw'
        exact hpw'.2.2 a (by simp) i hi' (by rw [hip]; exact ha)
    have hs : [y, b].Sublist (l2 ++ b :: l3) := by
      have : [y] ++ [b] = [y, b] := rfl
      rw [← this]
      exact (List.singleton_sublist.2 hy).append (by simp)
    exact key (l1 ++ [a]) (l2 ++ b :: l3) (by simpa using h) hmem y (by simp [hy]) hny b hs hb

end Traverse
