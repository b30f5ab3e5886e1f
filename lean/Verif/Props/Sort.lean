import Verif.Proofs.Sort
import Verif.Props.Visit
/-
C51: the order of siblings.
-/
namespace Traverse
variable {σ τ : Type}

/-- **C51** Two file systems that differ only in the order in which directories return their entries are traversed in the
same order: in the Universal and Files navigators the two sessions are the same in every respect, whatever the handlers do;
`key` is strings.ToLower for the default hook. -/
theorem C51_same_session (key : String → String) (c : Nav) (env : Env σ) (x : σ) (pre : Path) (fs fs' : FS)
    (hsort : SortsBy key c.sort) (hread : c.read = defaultRead) (hsub : c.sub = .universal ∨ c.sub = .files)
    (hshuffled : FS.Shuffled fs fs') (hkeys : fs.KeysDiffer key) :
    walk c env x pre fs = walk c env x pre fs' := by
  have h := prep_shuffled key c hsort hread (by rcases hsub with h | h <;> simp [h]) (by rcases hsub with h | h <;> simp [h])
    fs' fs hshuffled hkeys
  simp only [walk, h]

/-- **C51** For every subscription: there is one order of nodes in which both file systems are visited, by any handlers
and in both whether or not something is skipped. -/
theorem C51_same_order (key : String → String) (c : Nav) (pre : Path) (fs fs' : FS)
    (hsort : SortsBy key c.sort) (hread : c.read = defaultRead)
    (hshuffled : FS.Shuffled fs fs') (hkeys : fs.KeysDiffer key) (hd : fs.Distinct) (hd' : fs'.Distinct) :
    ∃ order : List NodeInfo, (order.map (fun n => n.path)).Nodup ∧
      (∀ {σ : Type} (env : Env σ) (x : σ), ((invoked (walk c env x pre fs).2.log).map Node.toNodeInfo).Sublist order) ∧
      (∀ {σ : Type} (env : Env σ) (x : σ), ((invoked (walk c env x pre fs').2.log).map Node.toNodeInfo).Sublist order) ∧
      (∀ {σ : Type} (env : Env σ) (x : σ), AlwaysNil env → DefaultSkip env → c.sub ≠ .files →
        (invoked (walk c env x pre fs).2.log).map Node.toNodeInfo = order ∧
        (invoked (walk c env x pre fs').2.log).map Node.toNodeInfo = order) := by
  have hsel := defaultRead_selects c hread
  have hp := hsort.permutes
  have heq : (items c [] pre 0 (prep c fs)).map (fun it => it.node.toNodeInfo) =
      (items c [] pre 0 (prep c fs')).map (fun it => it.node.toNodeInfo) := by
    have h1 := congrArg (List.map Prod.fst) (items_noFiles c (prep c fs) [] pre 0)
    have h2 := congrArg (List.map Prod.fst) (items_noFiles c (prep c fs') [] pre 0)
    rw [prep_shuffled_noFiles key c hsort hread fs' fs hshuffled hkeys] at h1
    rw [List.map_map, List.map_map] at h1 h2
    exact h1.symm.trans h2
  have sub : ∀ {σ : Type} (env : Env σ) (x : σ) (f : FS),
      ((invoked (walk c env x pre f).2.log).map Node.toNodeInfo).Sublist
        ((items c [] pre 0 (prep c f)).map (fun it => it.node.toNodeInfo)) := by
    intro σ env x f
    have := (walk_run c env x pre f).sublist
    rw [invoked_acts] at this
    have := this.map Node.toNodeInfo
    rwa [List.map_map] at this
  have all : ∀ {σ : Type} (env : Env σ) (x : σ) (f : FS), f.Distinct → AlwaysNil env → DefaultSkip env → c.sub ≠ .files →
      (invoked (walk c env x pre f).2.log).map Node.toNodeInfo =
        (items c [] pre 0 (prep c f)).map (fun it => it.node.toNodeInfo) := by
    intro σ env x f hdf hn hs hf
    have := (walk_accepting c env x pre f hp hsel hn hs hdf (fun h => absurd h hf)).1
    rw [this, List.filter_eq_self.2 (by simp [hf]), List.map_map]
    rfl
  refine ⟨_, ?_, fun env x => sub env x fs, fun env x => heq ▸ sub env x fs',
    fun env x hn hs hf => ⟨all env x fs hd hn hs hf, heq ▸ all env x fs' hd' hn hs hf⟩⟩
  rw [List.map_map]
  exact (items_preOrder c _ (prep_distinct c hp hsel fs hd) [] pre 0).nodup

/-- Siblings of one kind in an enumeration are in ascending order. -/
theorem items_ascending (key : String → String) (c : Nav) (pre : Path) (fs : FS) (d : Int)
    (hsort : SortsBy key c.sort) (hread : ReadSelects c) (hdistinct : fs.Distinct) (i j : Node) (p : Path) (m n : String)
    (hs : [i, j].Sublist ((items c [] pre d (prep c fs)).map (·.node))) (hi : i.path = p ++ [m]) (hj : j.path = p ++ [n])
    (hkind : i.isDir = j.isDir) : ¬ key n < key m := by
  have hp := hsort.permutes
  have hdist := prep_distinct c hp hread fs hdistinct
  have hpre := (items_in_order c pre fs hp hread hdistinct d _ hs).1
  have hne : ¬ j.path <+: i.path := by simpa using hpre
  obtain ⟨l', hl', he⟩ := List.sublist_map_iff.1 hs
  match l', he with
  | [i', j'], he =>
    simp at he
    obtain ⟨rfl, rfl⟩ := he
    have hp' : (pre ++ [(prep c fs).name]) <+: p := by
      have h1 := (items_path c _ [] pre d i' (hl'.subset (by simp))).1
      have h2 := (items_path c _ [] pre d j' (hl'.subset (by simp))).1
      rw [hi] at h1
      rw [hj] at h2
      rcases List.prefix_concat_iff.1 h1 with h | h
      · exfalso
        obtain ⟨e1, e2⟩ := List.append_inj' h rfl
        subst e1
        have := prefix_snoc_inj h2 (List.prefix_refl _)
        simp at e2
        apply hne
        rw [hi, hj, ← e2, this]
        exact List.prefix_refl _
      · exact h
    obtain ⟨u, hu, hxy⟩ := items_sibling_order c _ hdist [] pre d i' j' p m n hl' hi hj hp'
    obtain ⟨l2, hl2, he2⟩ := List.sublist_map_iff.1 hxy
    match l2, he2 with
    | [k, k'], he2 =>
      simp at he2
      obtain ⟨rfl, rfl⟩ := he2
      have kindOf : ∀ (it : Item) (k : Tree), it ∈ items c [] pre d (prep c fs) → k ∈ u.kids → it.node.path = p ++ [k.name] →
          it.node.isDir = k.isDir := by
        intro it k hit hk hpath
        obtain ⟨v, ps', h1, h2, _⟩ := items_at c _ _ _ _ it hit
        rw [hpath] at h1
        have := h1.unique hdist _ (hu.kid k hk)
        subst this
        rw [h2]; rfl
      have k1 := kindOf i' k (hl'.subset (by simp)) (hl2.subset (by simp)) hi
      have k2 := kindOf j' k' (hl'.subset (by simp)) (hl2.subset (by simp)) hj
      obtain ⟨g, hg, rfl⟩ := hu.prep hp hread fs rfl
      cases g with
      | file => simp [prep] at hl2
      | dir gn ie re kids =>
        rw [prep_dir] at hl2
        have hpw := kids_ascending (key := key) c hsort ⟨gn, true, ie⟩ re (kids.map (prep c)) k.isDir
        have hsub2 := hl2.filter (fun t => t.isDir == k.isDir)
        have hkk : k'.isDir = k.isDir := by rw [← k1, ← k2]; exact hkind.symm
        rw [List.filter_eq_self.2 (by intro t ht; simp at ht; rcases ht with rfl | rfl <;> simp [hkk])] at hsub2
        have := hpw.sublist hsub2
        simpa using this

/-- **C51** Siblings of the same kind are visited in ascending order of their keys, for every handler history. -/
theorem C51_ascending (key : String → String) (c : Nav) (env : Env σ) (x : σ) (pre : Path) (fs : FS)
    (hsort : SortsBy key c.sort) (hread : ReadSelects c) (hdistinct : fs.Distinct) (i j : Node) (p : Path) (m n : String)
    (hs : [i, j].Sublist (invoked (walk c env x pre fs).2.log)) (hi : i.path = p ++ [m]) (hj : j.path = p ++ [n])
    (hkind : i.isDir = j.isDir) : ¬ key n < key m := by
  have hsubl : (invoked (walk c env x pre fs).2.log).Sublist ((items c [] pre 0 (prep c fs)).map (·.node)) := by
    have := (walk_run c env x pre fs).sublist
    rwa [invoked_acts] at this
  exact items_ascending key c pre fs 0 hsort hread hdistinct i j p m n (hs.trans hsubl) hi hj hkind


/-- ASCII lower case, standing for strings.ToLower in the examples. -/
def Demo.lower (s : String) : String := String.ofList (s.toList.map Char.toLower)

/-- The demo file system in another order, with another case. -/
def Demo.fs1 : FS := .dir "r" none none [.file "B" none none, .dir "d" none none [.file "y" none none, .file "X" none none], .file "a" none none]
def Demo.fs2 : FS := .dir "r" none none [.file "a" none none, .dir "d" none none [.file "X" none none, .file "y" none none], .file "B" none none]

/-- Not vacuous: a sort hook as assumed exists for every key, and two listings that differ in order. -/
example : (∀ key, SortsBy key (sortByKey key)) ∧ FS.Shuffled Demo.fs1 Demo.fs2 ∧ Demo.fs1.KeysDiffer Demo.lower ∧
    Demo.fs1.Distinct ∧ Demo.fs2.Distinct ∧ Demo.fs1.name = "r" := by
  refine ⟨sortByKey_sorts, ?_, ?_, ?_, ?_, rfl⟩
  · refine .dir "r" none none (mid := [.file "a" none none, .dir "d" none none [.file "y" none none, .file "X" none none], .file "B" none none])
      ?_ (.cons (.file ..) (.cons (.dir "d" none none (mid := [.file "X" none none, .file "y" none none]) (List.Perm.swap _ _ _)
        (.cons (.file ..) (.cons (.file ..) .nil))) (.cons (.file ..) .nil)))
    exact ((List.Perm.swap _ _ _).trans (List.Perm.cons _ (List.Perm.swap _ _ _))).trans (List.Perm.swap _ _ _)
  · refine ⟨fun b => ?_, trivial, ⟨fun b => ?_, trivial, trivial, trivial⟩, trivial, trivial⟩ <;> cases b <;> decide +kernel
  · simp [Demo.fs1, FS.Distinct, FS.DistinctL, FS.name]
  · simp [Demo.fs2, FS.Distinct, FS.DistinctL, FS.name]

end Traverse
