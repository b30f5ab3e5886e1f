import Verif.Spec.Sort
import Verif.Proofs.Faults2
namespace Traverse

theorem sortByKey_le (key : String → String) (a b : Tree) :
    (decide (¬ key b.name < key a.name)) = true ↔ key a.name ≤ key b.name := by
  simp

theorem sortByKey_sorts (key : String → String) : SortsBy key (sortByKey key) := by
  intro l
  refine ⟨List.mergeSort_perm _ _, ?_⟩
  have := List.pairwise_mergeSort (le := fun a b : Tree => decide (¬ key b.name < key a.name)) ?_ ?_ l
  · refine this.imp ?_
    intro a b h; simpa using h
  · intro a b c h1 h2
    simp only [sortByKey_le] at *
    exact String.le_trans h1 h2
  · intro a b
    simp only [Bool.or_eq_true, sortByKey_le]
    exact String.le_total _ _

theorem sortByKey_byNames (key : String → String) (c : Nav) (h : c.sort = sortByKey key) : SortByNames c := by
  intro ps hp
  refine ⟨ps.mergeSort (fun a b => decide (¬ key b.1.name < key a.1.name)), List.mergeSort_perm _ _, ?_, ?_⟩
  · rw [h, sortByKey]
    exact (List.map_mergeSort (f := Prod.fst) (s := fun a b : Tree => decide (¬ key b.name < key a.name)) (fun a _ b _ => rfl)).symm
  · rw [h, sortByKey]
    refine (List.map_mergeSort (fun a ha b hb => ?_)).symm
    rw [(hp a ha).1, (hp b hb).1]

theorem SortsBy.permutes {key} {c : Nav} (h : SortsBy key c.sort) : SortPermutes c := fun l => (h l).1

/-- Sorting forgets the order in which things came, if keys differ. -/
theorem SortsBy.unique {key sort} (h : SortsBy key sort) (g : Tree → Tree) (hg : ∀ t, (g t).name = t.name) (l l' : List Tree)
    (hp : (l.map g).Perm (l'.map g)) (hd : (l.map (fun t => key t.name)).Nodup) :
    (sort l).map g = (sort l').map g := by
  obtain ⟨p1, s1⟩ := h l
  obtain ⟨p2, s2⟩ := h l'
  have hkeys : ∀ l : List Tree, (l.map g).map (fun t => key t.name) = l.map (fun t => key t.name) := by
    intro l; rw [List.map_map]; apply List.map_congr_left; intro t _; simp [hg]
  refine List.Perm.eq_of_pairwise (le := fun a b => ¬ key b.name < key a.name) ?_ ?_ ?_ ?_
  · intro a b ha hb h1 h2
    have hb' : b ∈ l.map g := hp.mem_iff.2 ((p2.map g).mem_iff.1 hb)
    have ha' : a ∈ l.map g := (p1.map g).mem_iff.1 ha
    have hk : key a.name = key b.name := String.le_antisymm (String.not_lt.1 h1) (String.not_lt.1 h2)
    rw [← hkeys l] at hd
    generalize l.map g = L at ha' hb' hd
    clear ha hb h1 h2 p1 s1 p2 s2 hp
    induction L with
    | nil => simp at ha'
    | cons x xs ih =>
      simp only [List.map_cons, List.nodup_cons, List.mem_map, not_exists, not_and] at hd
      rcases List.mem_cons.1 ha' with e1 | e1 <;> rcases List.mem_cons.1 hb' with e2 | e2
      · rw [e1, e2]
      · exact absurd (e1 ▸ hk.symm) (hd.1 b e2)
      · exact absurd (e2 ▸ hk) (hd.1 a e1)
      · exact ih e1 e2 hd.2
  · rw [List.pairwise_map]; exact s1.imp (by intro a b h; simpa [hg] using h)
  · rw [List.pairwise_map]; exact s2.imp (by intro a b h; simpa [hg] using h)
  · exact ((p1.map g).trans hp).trans (p2.map g).symm

theorem FS.ShuffledL.map_eq {β : Type} {g : FS → β} {l l' : List FS} (h : FS.ShuffledL l l')
    (hg : ∀ k' ∈ l', ∀ k ∈ l, FS.Shuffled k k' → g k = g k') : l.map g = l'.map g := by
  induction l' generalizing l with
  | nil => cases h; rfl
  | cons a as ih =>
    cases h with
    | cons h1 h2 =>
      rw [List.map_cons, List.map_cons, hg a (by simp) _ (by simp) h1,
        ih h2 (fun k' hk' k hk => hg k' (by simp [hk']) k (by simp [hk]))]

theorem keysDifferL_iff (key) (l : List FS) : FS.KeysDifferL key l ↔ ∀ k ∈ l, FS.KeysDiffer key k := by
  induction l with
  | nil => simp [FS.KeysDifferL]
  | cons a as ih => simp [FS.KeysDifferL, ih]

mutual
/-- Forgets the files of all contents. -/
def Tree.noFiles : Tree → Tree
  | .node e r _ ds kids => .node e r [] ds (Tree.noFilesL kids)
def Tree.noFilesL : List Tree → List Tree
  | [] => []
  | t :: ts => t.noFiles :: Tree.noFilesL ts
end

theorem noFilesL_map (l : List Tree) : Tree.noFilesL l = l.map Tree.noFiles := by
  induction l with
  | nil => rfl
  | cons t ts ih => simp [Tree.noFilesL, ih]

theorem noFiles_entry (t : Tree) : t.noFiles.entry = t.entry := by cases t; rfl

/-- What `arrange` makes of two listings that agree, as far as `g` can tell, up to their order. -/
theorem arrange_shuffled (key) (c : Nav) (hs : SortsBy key c.sort) (hread : c.read = defaultRead)
    (g : Tree → Tree) (hg : ∀ t, (g t).entry = t.entry) (e re) (raw raw' : List Tree)
    (hp : (raw.map g).Perm (raw'.map g))
    (hd : ∀ b : Bool, ((raw.filter (fun t => t.isDir == b)).map (fun t => key t.name)).Nodup) :
    (arrange c e re raw).kids.map g = (arrange c e re raw').kids.map g ∧
    (arrange c e re raw).dirs = (arrange c e re raw').dirs ∧ (arrange c e re raw).readErr = (arrange c e re raw').readErr ∧
    (c.sub ≠ .directories → c.sub ≠ .directoriesWithFiles → (arrange c e re raw).files = (arrange c e re raw').files) := by
  have hgn : ∀ t, (g t).name = t.name := fun t => congrArg Entry.name (hg t)
  have hgd : ∀ t, (g t).isDir = t.isDir := fun t => congrArg Entry.isDir (hg t)
  have key1 : ∀ b : Bool, (c.sort ((c.read raw re).1.filter (fun t => t.isDir == b))).map g =
      (c.sort ((c.read raw' re).1.filter (fun t => t.isDir == b))).map g := by
    intro b
    rw [hread]
    cases re with
    | some x => simp [defaultRead]
    | none =>
      simp only [defaultRead]
      apply hs.unique g hgn
      · have : ∀ l : List Tree, ((l.filter (fun t => t.name != ".DS_Store")).filter (fun t => t.isDir == b)).map g =
            ((l.map g).filter (fun t => t.name != ".DS_Store")).filter (fun t => t.isDir == b) := by
          intro l
          rw [List.filter_map, List.filter_map]
          congr 1
          simp only [Function.comp_def, hgn, hgd]
        rw [this, this]
        exact (hp.filter _).filter _
      · rw [List.filter_filter]
        refine (hd b).sublist ?_
        have : (raw.filter (fun a => (a.isDir == b) && (a.name != ".DS_Store"))).Sublist (raw.filter (fun t => t.isDir == b)) := by
          have h1 : raw.filter (fun a => (a.isDir == b) && (a.name != ".DS_Store")) =
              (raw.filter (fun t => t.isDir == b)).filter (fun a => a.name != ".DS_Store") := by
            rw [List.filter_filter]; apply List.filter_congr; intro t _; exact Bool.and_comm _ _
          rw [h1]; exact List.filter_sublist
        exact this.map _
  have entries : ∀ l l' : List Tree, l.map g = l'.map g → l.map Tree.entry = l'.map Tree.entry := by
    intro l l' h
    have := congrArg (List.map Tree.entry) h
    rw [List.map_map, List.map_map] at this
    have e : Tree.entry ∘ g = Tree.entry := funext hg
    rwa [e] at this
  have hf := key1 false
  have ht := key1 true
  simp only [beq_false, beq_true] at hf ht
  have hre : (c.read raw re).2 = (c.read raw' re).2 := by rw [hread]; cases re <;> rfl
  have hef := entries _ _ hf
  have het := entries _ _ ht
  simp only [arrange]
  cases hsub : c.sub <;> simp only [Tree.kids_node, Tree.dirs_node, Tree.readErr_node, Tree.files_node, hre, het, ht, hef] <;>
    (refine ⟨?_, trivial, trivial, ?_⟩ <;> first | (intro _ _; trivial) | (intro h1 h2; simp at h1 h2) | skip) <;>
    first | (split <;> simp [hf, ht]; done) | rfl | simp [ht]

theorem arrange_eq (c : Nav) (e re raw) : arrange c e re raw =
    .node e (arrange c e re raw).readErr (arrange c e re raw).files (arrange c e re raw).dirs (arrange c e re raw).kids := by
  have := arrange_entry c e re raw
  generalize arrange c e re raw = t at this
  cases t; simp at this; subst this; rfl

theorem kinds_prep (key : String → String) (c : Nav) (kids : List FS) (b : Bool)
    (h : ((kids.filter (fun k => k.isDir == b)).map (fun k => key k.name)).Nodup) :
    (((kids.map (prep c)).filter (fun t => t.isDir == b)).map (fun t => key t.name)).Nodup := by
  rw [List.filter_map, List.map_map]
  have e1 : ((fun t : Tree => t.isDir == b) ∘ prep c) = fun k => k.isDir == b := by
    funext k; simp [(prep_entry c k).2]
  have e2 : ((fun t : Tree => key t.name) ∘ prep c) = fun k => key k.name := by
    funext k; simp [(prep_entry c k).1]
  rw [e1, e2]; exact h

theorem prep_shuffled (key) (c : Nav) (hs : SortsBy key c.sort) (hread : c.read = defaultRead)
    (hsub : c.sub ≠ .directories) (hsub2 : c.sub ≠ .directoriesWithFiles) (f' : FS) :
    ∀ f, FS.Shuffled f f' → f.KeysDiffer key → prep c f = prep c f' := by
  induction f' using FS.ind with
  | hf n ie re => intro f h _; cases h; rfl
  | hd n ie re kids' ih =>
    intro f h hk
    cases h with
    | @dir _ _ _ kids mid _ hp h =>
      rw [FS.KeysDiffer, keysDifferL_iff] at hk
      have hm : mid.map (prep c) = kids'.map (prep c) :=
        h.map_eq (fun k' hk' k hkm hkk => ih k' hk' k hkk (hk.2 k (hp.mem_iff.2 hkm)))
      rw [prep_dir, prep_dir]
      obtain ⟨h1, h2, h3, h4⟩ := arrange_shuffled key c hs hread id (fun _ => rfl) ⟨n, true, ie⟩ re (kids.map (prep c))
        (kids'.map (prep c)) (by rw [List.map_id, List.map_id, ← hm]; exact hp.map _)
        (fun b => kinds_prep key c kids b (hk.1 b))
      rw [List.map_id, List.map_id] at h1
      rw [arrange_eq, arrange_eq (raw := kids'.map (prep c)), h1, h2, h3, h4 hsub hsub2]

theorem noFiles_arrange (c : Nav) (e re raw) : (arrange c e re raw).noFiles =
    .node e (arrange c e re raw).readErr [] (arrange c e re raw).dirs ((arrange c e re raw).kids.map Tree.noFiles) := by
  rw [arrange_eq, Tree.noFiles, noFilesL_map]; rfl

theorem prep_shuffled_noFiles (key) (c : Nav) (hs : SortsBy key c.sort) (hread : c.read = defaultRead) (f' : FS) :
    ∀ f, FS.Shuffled f f' → f.KeysDiffer key → (prep c f).noFiles = (prep c f').noFiles := by
  induction f' using FS.ind with
  | hf n ie re => intro f h _; cases h; rfl
  | hd n ie re kids' ih =>
    intro f h hk
    cases h with
    | @dir _ _ _ kids mid _ hp h =>
      rw [FS.KeysDiffer, keysDifferL_iff] at hk
      have hm : mid.map (fun k => (prep c k).noFiles) = kids'.map (fun k => (prep c k).noFiles) :=
        h.map_eq (fun k' hk' k hkm hkk => ih k' hk' k hkk (hk.2 k (hp.mem_iff.2 hkm)))
      rw [prep_dir, prep_dir]
      obtain ⟨h1, h2, h3, _⟩ := arrange_shuffled key c hs hread Tree.noFiles noFiles_entry ⟨n, true, ie⟩ re (kids.map (prep c))
        (kids'.map (prep c)) (by
          rw [List.map_map, List.map_map]
          show (kids.map (fun k => (prep c k).noFiles)).Perm (kids'.map (fun k => (prep c k).noFiles))
          rw [← hm]; exact hp.map _)
        (fun b => kinds_prep key c kids b (hk.1 b))
      rw [noFiles_arrange, noFiles_arrange, h1, h2, h3]

theorem items_noFiles (c : Nav) (t : Tree) : ∀ ps pp d,
    (items c ps pp d t.noFiles).map (fun it => (it.node.toNodeInfo, it.node.parents)) =
    (items c ps pp d t).map (fun it => (it.node.toNodeInfo, it.node.parents)) := by
  induction t using Tree.ind with
  | h e r fs ds kids ih =>
    intro ps pp d
    simp only [Tree.noFiles, items]
    split
    · rfl
    · have hinfo : (mkNode c ps (pp ++ [e.name]) (.node e r [] ds (Tree.noFilesL kids)) (d + 1)).toNodeInfo =
          (mkNode c ps (pp ++ [e.name]) (.node e r fs ds kids) (d + 1)).toNodeInfo := rfl
      rw [hinfo]
      simp only [List.map_cons]
      congr 1
      rw [itemsList_eq, itemsList_eq, noFilesL_map, List.map_flatMap, List.map_flatMap, List.flatMap_map]
      have : ∀ l : List Tree, (∀ k ∈ l, k ∈ kids) → ∀ q, l.flatMap (fun a => (items c q (pp ++ [e.name]) (d + 1) a.noFiles).map
          (fun it => (it.node.toNodeInfo, it.node.parents))) =
          l.flatMap (fun a => (items c q (pp ++ [e.name]) (d + 1) a).map (fun it => (it.node.toNodeInfo, it.node.parents))) := by
        intro l hl q
        induction l with
        | nil => rfl
        | cons a as iha =>
          rw [List.flatMap_cons, List.flatMap_cons, ih a (hl a (by simp)), iha (fun k hk => hl k (by simp [hk]))]
      exact this kids (fun _ h => h) _


theorem Tree.At.pre_prefix {pp t p u} (h : Tree.At pp t p u) : (pp ++ [t.name]) <+: p := by
  induction h with
  | here => exact List.prefix_refl _
  | inside hk h ih => exact (List.prefix_append _ _).trans ih

theorem Tree.At.kid {pp t p u} (h : Tree.At pp t p u) : ∀ k ∈ u.kids, Tree.At pp t (p ++ [k.name]) k := by
  induction h with
  | here pp t => intro k hk; exact .inside hk (.here _ _)
  | inside hk h ih => intro k hk'; exact .inside hk (ih k hk')

theorem Tree.At.unique {pp t p u} (h : Tree.At pp t p u) : t.Distinct → ∀ u', Tree.At pp t p u' → u = u' := by
  induction h with
  | here pp t =>
    intro _ u' h'
    cases h' with
    | here => rfl
    | inside hk h =>
      have := h.pre_prefix.length_le
      simp at this
  | @inside pp t k p u hk h ih =>
    intro hd u' h'
    cases h' with
    | here =>
      have := h.pre_prefix.length_le
      simp at this
    | @inside _ _ k' _ _ hk' h'' =>
      have hn : k.name = k'.name := prefix_snoc_inj h.pre_prefix h''.pre_prefix
      cases t with
      | node e r fs ds kids =>
        simp only [Tree.kids_node] at hk hk'
        rw [Tree.Distinct, Tree.distinctL_iff] at hd
        have hkk : k = k' := by
          have hnd := hd.1
          clear ih h h'' hd
          induction kids with
          | nil => simp at hk
          | cons a as ih =>
            simp only [List.map_cons, List.nodup_cons, List.mem_map, not_exists, not_and] at hnd
            rcases List.mem_cons.1 hk with e1 | e1 <;> rcases List.mem_cons.1 hk' with e2 | e2
            · rw [e1, e2]
            · exact absurd (e1 ▸ hn.symm) (hnd.1 k' e2)
            · exact absurd (e2 ▸ hn) (hnd.1 k e1)
            · exact ih e1 e2 hnd.2
        subst hkk
        exact ih (hd.2 k hk) u' h''

theorem kids_ascending {key} (c : Nav) (hs : SortsBy key c.sort) (e re raw) (b : Bool) :
    ((arrange c e re raw).kids.filter (fun t => t.isDir == b)).Pairwise (fun a b => ¬ key b.name < key a.name) := by
  have h1 : ∀ k : Bool, ((c.sort ((c.read raw re).1.filter (fun t => t.isDir == k))).filter (fun t => t.isDir == b)).Pairwise
      (fun a b => ¬ key b.name < key a.name) := fun k => (hs _).2.sublist List.filter_sublist
  have h2 : ∀ k : Bool, k ≠ b → (c.sort ((c.read raw re).1.filter (fun t => t.isDir == k))).filter (fun t => t.isDir == b) = [] := by
    intro k hk
    apply List.filter_eq_nil_iff.2
    intro t ht
    have := (List.mem_filter.1 ((hs _).1.mem_iff.1 ht)).2
    intro h
    simp only [beq_iff_eq] at this h
    exact hk (this.symm.trans h)
  have hf := h1 false
  have ht := h1 true
  have h2f := h2 false
  have h2t := h2 true
  simp only [beq_false, beq_true] at hf ht h2f h2t
  have both : ∀ A B : List Tree, A.Pairwise (fun a b => ¬ key b.name < key a.name) →
      B.Pairwise (fun a b => ¬ key b.name < key a.name) → (A = [] ∨ B = []) →
      (A ++ B).Pairwise (fun a b => ¬ key b.name < key a.name) := by
    intro A B hA hB h
    rcases h with rfl | rfl
    · simpa using hB
    · simpa using hA
  simp only [arrange]
  have or1 : (c.sort ((c.read raw re).1.filter (fun t => t.isDir))).filter (fun t => t.isDir == b) = [] ∨
      (c.sort ((c.read raw re).1.filter (fun t => !t.isDir))).filter (fun t => t.isDir == b) = [] := by
    cases b
    · exact Or.inl (h2t (by simp))
    · exact Or.inr (h2f (by simp))
  cases c.sub <;> simp only [Tree.kids_node] <;> first
    | exact ht
    | (split
       · rw [List.filter_append]; exact both _ _ hf ht or1.symm
       · rw [List.filter_append]; exact both _ _ ht hf or1)

end Traverse
