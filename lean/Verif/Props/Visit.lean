import Verif.Proofs.Nav2
import Verif.Demo.Demo
/-
C01 – C06: what is visited, in which order, at which depth.

`walk c env x pre fs` is a session on the file system `fs` (whose root lies in directory `pre`) with
navigation settings `c` and outside world `env` in state `x`; `invoked log` lists the nodes the handler was
called for, in order.
-/
namespace Traverse
variable {σ τ : Type}

/-- **C01** Universal traversal is complete and duplicate free. `fs.nodes pre` enumerates, independently of
the navigator, the root and everything below it except what is inside unreadable directories or is named
".DS_Store" (the default read hook). -/
theorem C01_universal_complete (c : Nav) (env : Env σ) (x : σ) (pre : Path) (fs : FS)
    (hsub : c.sub = .universal) (hdepth : c.maxDepth = 0) (hread : c.read = defaultRead)
    (hsort : SortPermutes c) (hdistinct : fs.Distinct) (hnil : AlwaysNil env) (hskip : DefaultSkip env) :
    ((invoked (walk c env x pre fs).2.log).map fun n => (n.path, n.isDir)).Perm (fs.nodes pre) ∧
    ((invoked (walk c env x pre fs).2.log).map fun n => n.path).Nodup ∧
    (walk c env x pre fs).1 = .done none := by
  have hsel := defaultRead_selects c hread
  obtain ⟨h1, h2⟩ := walk_accepting c env x pre fs hsort hsel hnil hskip hdistinct (by simp [hsub])
  have h3 : invoked (walk c env x pre fs).2.log = (items c [] pre 0 (prep c fs)).map (·.node) := by
    rw [h1]; simp [hsub]
  refine ⟨?_, ?_, h2⟩
  · have := items_nodes c hsort hread hdepth (by simp [hsub]) (by simp [hsub]) fs [] pre 0
    rw [h3, List.map_map]
    exact this
  · rw [h3, List.map_map]
    exact (items_preOrder c _ (prep_distinct c hsort hsel fs hdistinct) [] pre 0).nodup

example : (Demo.nav .universal).sub = .universal ∧ SortPermutes (Demo.nav .universal) ∧ Demo.fs.Distinct ∧
    AlwaysNil (Demo.env Demo.quiet) ∧ DefaultSkip (Demo.env Demo.quiet) ∧ (Demo.fs.nodes []).length = 10 :=
  ⟨rfl, Demo.sortPermutes _, Demo.distinct, fun _ _ => rfl, fun _ _ _ => rfl, by decide +kernel⟩

/-- Whatever is enumerated, or a part of it, is in order. -/
theorem items_in_order (c : Nav) (pre : Path) (fs : FS) (hsort : SortPermutes c) (hread : ReadSelects c) (hdistinct : fs.Distinct) (d : Int) (L : List Node)
    (hsubl : L.Sublist ((items c [] pre d (prep c fs)).map (·.node))) :
    L.Pairwise (fun i j => ¬ j.path <+: i.path) ∧
    (∀ p a y b, [a, y, b].Sublist L → p <+: a.path → p <+: b.path → p <+: y.path) ∧
    (∀ p m n i j, [i, j].Sublist L → i.path = p ++ [m] → j.path = p ++ [n] →
      ∃ g, FS.At pre fs p g ∧ [m, n].Sublist (visitOrder c g)) := by
  have hdist := prep_distinct c hsort hread fs hdistinct
  have hpw : L.Pairwise (fun i j => ¬ j.path <+: i.path) := by
    have := (items_preOrder c _ hdist [] pre d).pairwise
    have h2 : ((items c [] pre d (prep c fs)).map (·.node)).Pairwise (fun i j => ¬ j.path <+: i.path) := by
      rw [List.pairwise_map]; exact this
    exact h2.sublist hsubl
  refine ⟨hpw, ?_, ?_⟩
  · intro p a y b hs ha hb
    obtain ⟨l', hl', he⟩ := List.sublist_map_iff.1 (hs.trans hsubl)
    match l', he with
    | [a', y', b'], he =>
      simp at he
      obtain ⟨rfl, rfl, rfl⟩ := he
      exact items_contiguous c _ hdist [] pre d p a' y' b' hl' ha hb
  · intro p m n i j hs hi hj
    have hne : ¬ j.path <+: i.path := by
      have := hpw.sublist hs
      simpa using this
    obtain ⟨l', hl', he⟩ := List.sublist_map_iff.1 (hs.trans hsubl)
    match l', he with
    | [i', j'], he =>
      simp at he
      obtain ⟨rfl, rfl⟩ := he
      have hp : (pre ++ [(prep c fs).name]) <+: p := by
        have h1 := (items_path c _ [] pre d i' (hl'.subset (by simp))).1
        have h2 := (items_path c _ [] pre d j' (hl'.subset (by simp))).1
        rw [hi] at h1
        rw [hj] at h2
        rcases List.prefix_concat_iff.1 h1 with h | h
        · exfalso
          obtain ⟨e1, e2⟩ := List.append_inj' h rfl
          subst e1
          have := prefix_snoc_inj h2 (List.prefix_refl _)
          simp at e2
          apply hne
          rw [hi, hj, ← e2, this]
          exact List.prefix_refl _
        · exact h
      obtain ⟨u, hu, hxy⟩ := items_sibling_order c _ hdist [] pre d i' j' p m n hl' hi hj hp
      obtain ⟨g, hg, rfl⟩ := hu.prep hsort hread fs rfl
      exact ⟨g, hg, by rw [← visitOrder_eq]; exact hxy⟩

/-- **C02** Pre-order and sibling order, for every handler history. -/
theorem C02_preorder (c : Nav) (env : Env σ) (x : σ) (pre : Path) (fs : FS)
    (hsort : SortPermutes c) (hread : ReadSelects c) (hdistinct : fs.Distinct) :
    let L := invoked (walk c env x pre fs).2.log
    -- no node is delivered after something inside it (nor twice)
    L.Pairwise (fun i j => ¬ j.path <+: i.path) ∧
    -- between two nodes at or below a path only nodes at or below that path are delivered
    (∀ p a y b, [a, y, b].Sublist L → p <+: a.path → p <+: b.path → p <+: y.path) ∧
    -- siblings come in the visiting order of their directory
    (∀ p m n i j, [i, j].Sublist L → i.path = p ++ [m] → j.path = p ++ [n] →
      ∃ g, FS.At pre fs p g ∧ [m, n].Sublist (visitOrder c g)) := by
  exact items_in_order c pre fs hsort hread hdistinct 0 _ (by
    have := (walk_run c env x pre fs).sublist
    rwa [invoked_acts] at this)

theorem nodup_map_inj {α β} {f : α → β} {l : List α} (h : (l.map f).Nodup) {a b : α} (ha : a ∈ l) (hb : b ∈ l)
    (he : f a = f b) : a = b := by
  induction l with
  | nil => simp at ha
  | cons x xs ih =>
    simp only [List.map_cons, List.nodup_cons, List.mem_map, not_exists, not_and] at h
    rcases List.mem_cons.1 ha with h1 | h1 <;> rcases List.mem_cons.1 hb with h2 | h2
    · rw [h1, h2]
    · exact absurd (h1 ▸ he.symm) (h.1 b h2)
    · exact absurd (h2 ▸ he) (h.1 a h1)
    · exact ih h.2 h1 h2

/-- In the visiting order of a directory no file comes before a directory, unless files go first, and then no
directory comes before a file. -/
theorem C02_kinds (c : Nav) (hsort : SortPermutes c) (hread : ReadSelects c) (g : FS)
    (hsub : c.sub = .universal ∨ c.sub = .files) (n : String) (ie re kids) (hg : g = .dir n ie re kids)
    (hnames : (kids.map FS.name).Nodup) (a b : FS) (ha : a ∈ kids) (hb : b ∈ kids)
    (h : [a.name, b.name].Sublist (visitOrder c g)) :
    (c.filesFirst = false → b.isDir = true → a.isDir = true) ∧
    (c.filesFirst = true → b.isDir = false → a.isDir = false) := by
  subst hg
  have key : ∀ (P : Tree → Bool) (k : FS), k ∈ kids → k.name ∈ (c.sort ((c.read (kids.map (prep c)) re).1.filter P)).map Tree.name →
      P (prep c k) = true := by
    intro P k hk hm
    obtain ⟨t, ht, htn⟩ := List.mem_map.1 hm
    have h1 := (hsort _).mem_iff.1 ht
    obtain ⟨h2, h3⟩ := List.mem_filter.1 h1
    obtain ⟨l, hl, hls⟩ := hread (kids.map (prep c)) re
    obtain ⟨k', hk', rfl⟩ := List.mem_map.1 (hls.subset (hl.mem_iff.2 h2))
    have : k' = k := by
      rw [(prep_entry c k').1] at htn
      exact nodup_map_inj hnames hk' hk htn
    rw [← this]; exact h3
  have split : ∀ (P Q : Tree → Bool) (l1 l2 : List String),
      [a.name, b.name].Sublist (l1 ++ l2) → (a.name ∈ l1 ∨ b.name ∈ l2) := by
    intro P Q l1 l2 h
    obtain ⟨m1, m2, he, h1, h2⟩ := List.sublist_append_iff.1 h
    match m1, he with
    | [], he => simp at he; subst he; exact Or.inr (h2.subset (by simp))
    | [_], he => simp at he; obtain ⟨rfl, rfl⟩ := he; exact Or.inl (h1.subset (by simp))
    | [_, _], he => simp at he; obtain ⟨rfl, rfl, rfl⟩ := he; exact Or.inl (h1.subset (by simp))
  have isD : ∀ k : FS, (prep c k).isDir = k.isDir := fun k => (prep_entry c k).2
  have hv : visitOrder c (.dir n ie re kids) = if c.filesFirst then
      (c.sort ((c.read (kids.map (prep c)) re).1.filter (fun t => !t.isDir))).map Tree.name ++
        (c.sort ((c.read (kids.map (prep c)) re).1.filter (fun t => t.isDir))).map Tree.name else
      (c.sort ((c.read (kids.map (prep c)) re).1.filter (fun t => t.isDir))).map Tree.name ++
        (c.sort ((c.read (kids.map (prep c)) re).1.filter (fun t => !t.isDir))).map Tree.name := by
    rcases hsub with hs | hs <;> simp [visitOrder, hs] <;> split <;> rfl
  rw [hv] at h
  constructor
  · intro hff hbd
    rw [hff] at h
    rcases split (fun _ => true) (fun _ => true) _ _ h with h | h
    · have := key _ a ha h; rwa [isD] at this
    · have := key _ b hb h; simp [isD, hbd] at this
  · intro hff hbd
    rw [hff] at h
    rcases split (fun _ => true) (fun _ => true) _ _ h with h | h
    · have := key _ a ha h; simpa [isD] using this
    · have := key _ b hb h; simp [isD, hbd] at this

/-- **C03** Files subscription: exactly the files, in Universal's relative order, with the same node data. -/
theorem C03_files (c : Nav) (env : Env σ) (x : σ) (env' : Env τ) (x' : τ) (pre : Path) (fs : FS)
    (hread : c.read = defaultRead) (hsort : SortPermutes c) (hdistinct : fs.Distinct)
    (hnil : AlwaysNil env) (hskip : DefaultSkip env)
    (hnil' : AlwaysNil env') (hskip' : DefaultSkip env') :
    let F := walk { c with sub := .files } env x pre fs
    let U := walk { c with sub := .universal } env' x' pre fs
    invoked F.2.log = (invoked U.2.log).filter (fun n => !n.isDir) ∧ F.1 = .done none ∧
    (c.maxDepth = 0 →
      ((invoked F.2.log).map fun n => n.path).Perm (((fs.nodes pre).filter (fun q => !q.2)).map Prod.fst)) := by
  intro F U
  obtain ⟨h1, h2⟩ := walk_accepting { c with sub := .files } env x pre fs hsort
    (defaultRead_selects _ hread) hnil hskip hdistinct
    (fun _ => hread)
  obtain ⟨h3, h4⟩ := walk_accepting { c with sub := .universal } env' x' pre fs hsort
    (defaultRead_selects _ hread) hnil' hskip' hdistinct (by simp)
  have h5 : invoked F.2.log = (invoked U.2.log).filter (fun n => !n.isDir) := by
    rw [h1, h3, prep_files_universal, items_files_universal]
    simp
  refine ⟨h5, h2, ?_⟩
  intro hm
  obtain ⟨hp, _, _⟩ := C01_universal_complete { c with sub := .universal } env' x' pre fs rfl hm hread hsort
    hdistinct hnil' hskip'
  have := (hp.filter (fun q => !q.2)).map Prod.fst
  rw [h5]
  refine List.Perm.trans (List.Perm.of_eq ?_) this
  rw [List.filter_map, List.map_map]
  rfl

/-- **C04** Directories subscriptions: exactly the directories, in Universal's relative order, with the same
node data. -/
theorem C04_directories (c : Nav) (sub : Subscription) (env : Env σ) (x : σ) (env' : Env τ) (x' : τ)
    (pre : Path) (fs : FS) (hsub : sub = .directories ∨ sub = .directoriesWithFiles)
    (hread : c.read = defaultRead) (hsort : SortPermutes c) (hsort' : SortByEntries c)
    (hdistinct : fs.Distinct) (hroot : fs.isDir = true)
    (hnil : AlwaysNil env) (hskip : DefaultSkip env) (hnil' : AlwaysNil env') (hskip' : DefaultSkip env') :
    let D := walk { c with sub := sub } env x pre fs
    let U := walk { c with sub := .universal } env' x' pre fs
    (invoked D.2.log).map Node.toNodeInfo =
      ((invoked U.2.log).filter (fun n => n.isDir)).map Node.toNodeInfo ∧ D.1 = .done none ∧
    (c.maxDepth = 0 →
      ((invoked D.2.log).map fun n => n.path).Perm (((fs.nodes pre).filter (fun q => q.2)).map Prod.fst)) := by
  intro D U
  have hns : sub ≠ .files := by rcases hsub with h | h <;> simp [h]
  obtain ⟨h1, h2⟩ := walk_accepting { c with sub := sub } env x pre fs hsort
    (defaultRead_selects _ hread) hnil hskip hdistinct (fun h => absurd h hns)
  obtain ⟨h3, h4⟩ := walk_accepting { c with sub := .universal } env' x' pre fs hsort
    (defaultRead_selects _ hread) hnil' hskip' hdistinct (by simp)
  have h5 := items_dirs c hsort' hread sub hsub fs hroot [] pre 0
  have h6 : (invoked D.2.log).map Node.toNodeInfo =
      ((invoked U.2.log).filter (fun n => n.isDir)).map Node.toNodeInfo := by
    rw [h1, h3]
    have e1 : ∀ l : List Node, l.filter (fun n => !(decide (sub = .files) && n.isDir)) = l := by
      intro l; exact List.filter_eq_self.2 (by simp [hns])
    have e2 : ∀ l : List Node, l.filter (fun n => !(decide (Subscription.universal = .files) && n.isDir)) = l := by
      intro l; exact List.filter_eq_self.2 (by simp)
    rw [e1, e2, List.filter_map, List.map_map, List.map_map]
    exact h5
  refine ⟨h6, h2, ?_⟩
  intro hm
  obtain ⟨hp, _, _⟩ := C01_universal_complete { c with sub := .universal } env' x' pre fs rfl hm hread hsort
    hdistinct hnil' hskip'
  have := (hp.filter (fun q => q.2)).map Prod.fst
  have h7 : (invoked D.2.log).map (fun n => n.path) = ((invoked U.2.log).filter (fun n => n.isDir)).map (fun n => n.path) := by
    have := congrArg (List.map NodeInfo.path) h6
    rw [List.map_map, List.map_map] at this; exact this
  rw [h7]
  refine List.Perm.trans (List.Perm.of_eq ?_) this
  rw [List.filter_map, List.map_map]
  rfl

/-- The hypotheses of C03 and C04 are met by the demo. -/
example : SortByEntries (Demo.nav .universal) ∧ Demo.fs.isDir = true ∧
    (Demo.run .files Demo.quiet).2.length = 6 ∧ (Demo.run .directories Demo.quiet).2.length = 4 := by
  refine ⟨?_, rfl, by decide +kernel, by decide +kernel⟩
  intro ps _
  exact ⟨ps.reverse, List.reverse_perm ps, by simp [Demo.nav], by simp [Demo.nav]⟩

/-- Not vacuous, C03 with a directory that cannot be read: its files are left out, the other files are delivered. -/
example : Demo.fsBad.Distinct ∧ ¬ Demo.fsBad.Readable ∧
    (invoked (walk (Demo.nav .files) (Demo.env Demo.quiet) () [] Demo.fsBad).2.log).map (fun n => n.path) =
      [["r", "c", "w"], ["r", "f"]] ∧
    (walk (Demo.nav .files) (Demo.env Demo.quiet) () [] Demo.fsBad).1 = .done none := by
  refine ⟨?_, ?_, by decide +kernel, by decide +kernel⟩
  · simp [Demo.fsBad, FS.Distinct, FS.DistinctL, FS.name]
  · simp [Demo.fsBad, FS.Readable, FS.ReadableL]

end Traverse
