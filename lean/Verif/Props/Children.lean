import Verif.Props.Nodes
import Verif.Props.Saved
/-
C33: the children of DirectoriesWithFiles.
-/
namespace Traverse
variable {κ : Type}

/-- Which files are wanted as children. -/
def Setup.keeps (S : Setup) (e : Entry) : Bool :=
  match S.filter.child with
  | none => true
  | some f => f e

/-- **C33 is false of the code** when a node filter is set without a child filter: then neither the nanny nor the child
scheme is active, no directory gets its Children and no child is counted. -/
theorem C33_node_filter_loses_children :
    let S := { Demo.filtered .directoriesWithFiles with sampling := false }
    let w := (S.session (Demo.client Demo.quiet) () (fun _ => none) [] [] Demo.fs).2.ext
    w.hits.map (fun h => (h.parcel.node.path, h.parcel.children.map (·.name))) =
      [(["r"], []), (["r", "c"], []), (["r", "a"], [])] ∧ w.metrics.count .childFound = 0 := by
  decide +kernel

theorem filesRead_at (c : Nav) (hsub : c.sub = .directoriesWithFiles) (hread : c.read = defaultRead) (g : FS) (ps p d) :
    (mkNode c ps p (prep c g) d).filesRead = g.fileEntries := by
  have h1 : (mkNode c ps p (prep c g) d).filesRead = (prep c g).files := by
    simp [Node.filesRead, mkNode, hsub, hasCargo]
  rw [h1]
  cases g with
  | file n ie re => rfl
  | dir n ie re kids =>
    rw [prep_dir]
    simp only [arrange, hsub, hread]
    cases re with
    | some x => simp [defaultRead, FS.fileEntries]
    | none =>
      simp only [defaultRead, FS.fileEntries, Option.isSome_none, Bool.false_eq_true, if_false, Tree.files_node]
      rw [List.filter_map, List.filter_map, List.map_map, List.filter_filter]
      have e1 : ∀ x : FS, (((fun t : Tree => !t.isDir) ∘ prep c) x && ((fun t : Tree => t.name != ".DS_Store") ∘ prep c) x) =
          (x.name != ".DS_Store" && !x.isDir) := by
        intro x
        simp only [Function.comp_def, (prep_entry c x).1, (prep_entry c x).2, Bool.and_comm]
      rw [List.filter_congr (fun x _ => e1 x)]
      apply List.map_congr_left
      intro k hk
      cases k with
      | file n ie re => rfl
      | dir n ie re kids => simp [FS.isDir] at hk

theorem sortEntries_length (c : Nav) (hs : SortPermutes c) (l : List Entry) : (c.sortEntries l).length = l.length := by
  unfold Nav.sortEntries
  rw [List.length_map, (hs _).length_eq, List.length_map]

theorem sortEntries_perm (c : Nav) (hs : SortPermutes c) (l : List Entry) : (c.sortEntries l).Perm l := by
  unfold Nav.sortEntries
  refine ((hs _).map _).trans ?_
  rw [List.map_map]
  have : (Tree.entry ∘ fun e => Tree.node e none [] [] []) = id := by funext e; rfl
  rw [this, List.map_id]

structure ChildCounts (S : Setup) (base found : Nat) (w : World κ) : Prop where
  regF : (w.metrics .childFound).isSome = true
  regO : S.filter.active = true → (w.metrics .childFilteredOut).isSome = true
  now : w.metrics.count .childFound + w.metrics.count .childFilteredOut =
    base + (w.called.map (fun n => (S.nav.sortEntries n.filesRead).length)).sum
  kept : w.metrics.count .childFound = found + (w.called.map (fun n => ((S.nav.sortEntries n.filesRead).filter S.keeps).length)).sum

/-- The children that come with a directory. -/
theorem childrenOf_keeps (S : Setup) (hsub : S.nav.sub = .directoriesWithFiles) (hk : S.filter.child.isSome = true ∨ S.filter.primary = none)
    (n : Node) : S.childrenOf n = (S.nav.sortEntries n.filesRead).filter S.keeps := by
  unfold Setup.childrenOf Setup.keeps
  rcases hc : S.filter.child with _ | f
  · have hp : S.filter.primary = none := by
      rcases hk with h | h
      · rw [hc] at h; cases h
      · exact h
    have : S.filter.active = false := by simp [FilterOpts.active, hp, hc]
    simp [this, Setup.nannyOn, hsub, List.filter_eq_self.2]
  · have : S.filter.active = true := by simp [FilterOpts.active, hc]
    simp [this]

theorem childCounts_start (S : Setup) (x : κ) (carried : Metrics) :
    ChildCounts S ((S.world x carried).metrics.count .childFound + (S.world x carried).metrics.count .childFilteredOut)
      ((S.world x carried).metrics.count .childFound) (S.world x carried) := by
  have hm : S.metrics .childFound = some 0 ∧ (S.filter.active = true → S.metrics .childFilteredOut = some 0) := by
    have hdec : S.filter.active = true → Role.clientFilter ∈ S.decorators := by
      intro h; simp [Setup.decorators, Setup.activeRoles, h]
    unfold Setup.metrics
    constructor
    · repeat' split
      all_goals simp [Metrics.many, Metrics.single]
    · intro h
      simp only [hdec h, if_true]
      split <;> simp [Metrics.many, Metrics.single]
  refine ⟨?_, ?_, ?_, ?_⟩
  · simp only [Setup.world, Metrics.merge, hm.1]
    cases carried .childFound <;> rfl
  · intro h
    simp only [Setup.world, Metrics.merge, hm.2 h]
    cases carried .childFilteredOut <;> rfl
  · simp [World.called, Setup.world]
  · simp [World.called, Setup.world]

/-- What one node does to the counters. -/
theorem childCounts_step (S : Setup) (hsub : S.nav.sub = .directoriesWithFiles) (hk : S.filter.child.isSome = true ∨ S.filter.primary = none)
    (hnode : ∀ m, S.filter.primary ≠ some (.sample m)) (C : Client κ) {base found : Nat} {s : St (World κ)} {n : Node} {w' : World κ}
    {rep : Reply} (hp : PlainStep S C s.ext n w' rep) (h : ChildCounts S base found s.ext) : ChildCounts S base found w' := by
  have hmt := hp.metrics
  have hht := hp.hits
  have hcalled : w'.called = s.ext.called ++ (if S.awake s.ext n && S.accepts n then [n] else []) := by
    unfold World.called
    rw [hht, List.map_append]
    congr 1
    split <;> rfl
  -- what the filter stage does to the counters
  have hcP : ∀ k, k ≠ .dirsFilteredOut → k ≠ .filesFilteredOut → (S.countP s.ext.metrics n) k = s.ext.metrics k := by
    intro k k1 k2
    unfold Setup.countP
    rcases hpr : S.filter.primary with _ | f | m
    · rfl
    · simp only
      split
      · rfl
      · cases n.isDir <;> simp [Metrics.tick, Metrics.times, filteredMetric, k1, k2]
    · exact absurd hpr (hnode m)
  have hrej : S.accepts n = false → (S.countF s.ext.metrics n) .childFound = s.ext.metrics .childFound ∧
      (S.countF s.ext.metrics n) .childFilteredOut = s.ext.metrics .childFilteredOut := by
    intro hacc
    have ha : S.filter.active = true := by
      cases ha : S.filter.active
      · have : S.filter.primary = none := by
          unfold FilterOpts.active at ha; simp at ha; exact ha.1
        simp [Setup.accepts, this] at hacc
      · rfl
    unfold Setup.countF
    rw [if_pos ha]
    rcases S.filter.child with _ | f
    · exact ⟨hcP _ (by simp) (by simp), hcP _ (by simp) (by simp)⟩
    · simp only [hacc, Bool.false_eq_true, if_false]
      exact ⟨hcP _ (by simp) (by simp), hcP _ (by simp) (by simp)⟩
  have hacp : S.accepts n = true →
      ((S.countF s.ext.metrics n) .childFound).isSome = true ∧
      (S.filter.active = true → ((S.countF s.ext.metrics n) .childFilteredOut).isSome = true) ∧
      (S.countF s.ext.metrics n).count .childFound + (S.countF s.ext.metrics n).count .childFilteredOut =
      s.ext.metrics.count .childFound + s.ext.metrics.count .childFilteredOut +
        (S.nav.sortEntries n.filesRead).length ∧
      (S.countF s.ext.metrics n).count .childFound = s.ext.metrics.count .childFound +
        ((S.nav.sortEntries n.filesRead).filter S.keeps).length := by
    intro hacc
    unfold Setup.countF
    rcases hc : S.filter.child with _ | f
    · have hpn : S.filter.primary = none := by
        rcases hk with h | h
        · rw [hc] at h; cases h
        · exact h
      have ha : S.filter.active = false := by simp [FilterOpts.active, hpn, hc]
      have hnn : S.nannyOn = true := by simp [Setup.nannyOn, hsub, ha]
      simp only [ha, hnn, if_true, Bool.false_eq_true, if_false]
      have hkp : S.keeps = fun _ => true := by funext e; simp [Setup.keeps, hc]
      refine ⟨?_, by simp, ?_, ?_⟩
      · rw [Metrics.isSome_times]; exact h.regF
      · simp only [Metrics.count_times, h.regF]
        simp; omega
      · simp only [Metrics.count_times, h.regF, hkp]
        simp [List.filter_eq_self.2]
    · have ha : S.filter.active = true := by simp [FilterOpts.active, hc]
      simp only [ha, hacc, if_true]
      have e1 := hcP .childFound (by simp) (by simp)
      have e2 := hcP .childFilteredOut (by simp) (by simp)
      have r1 := h.regF
      have r2 := h.regO ha
      have hkp : S.keeps = f := by funext e; simp [Setup.keeps, hc]
      refine ⟨?_, fun _ => ?_, ?_, ?_⟩
      · simp only [Metrics.isSome_times, e1]; exact r1
      · simp only [Metrics.isSome_times, e2]; exact r2
      · have c1 : (S.countP s.ext.metrics n).count .childFound = s.ext.metrics.count .childFound := by
          unfold Metrics.count; rw [e1]
        have c2 : (S.countP s.ext.metrics n).count .childFilteredOut = s.ext.metrics.count .childFilteredOut := by
          unfold Metrics.count; rw [e2]
        have hle := List.length_filter_le f (S.nav.sortEntries n.filesRead)
        simp only [Metrics.count_times, Metrics.isSome_times, e1, e2, r1, r2, c1, c2]
        simp
        omega
      · have c1 : (S.countP s.ext.metrics n).count .childFound = s.ext.metrics.count .childFound := by
          unfold Metrics.count; rw [e1]
        simp only [Metrics.count_times, Metrics.isSome_times, e1, r1, c1, hkp]
        simp
  have htick : ∀ (m : Metrics) b, (m.tick (invokedMetric b)) .childFound = m .childFound ∧
      (m.tick (invokedMetric b)) .childFilteredOut = m .childFilteredOut := by
    intro m b; cases b <;> simp [Metrics.tick, Metrics.times, invokedMetric]
  cases haw : S.awake s.ext n
  · rw [haw] at hmt hcalled
    simp only [Bool.false_eq_true, if_false, Bool.false_and, List.append_nil] at hmt hcalled
    exact ⟨by rw [hmt]; exact h.regF, by rw [hmt]; exact h.regO, by rw [hmt, hcalled]; exact h.now, by rw [hmt, hcalled]; exact h.kept⟩
  · rw [haw] at hmt hcalled
    cases hacc : S.accepts n
    · rw [hacc] at hmt hcalled
      simp only [if_true, Bool.false_eq_true, if_false, Bool.and_false, List.append_nil] at hmt hcalled
      obtain ⟨r1, r2⟩ := hrej hacc
      refine ⟨by rw [hmt, r1]; exact h.regF, by rw [hmt, r2]; exact h.regO, ?_, ?_⟩
      · rw [hmt, hcalled]
        unfold Metrics.count
        rw [r1, r2]
        exact h.now
      · rw [hmt, hcalled]
        unfold Metrics.count
        rw [r1]
        exact h.kept
    · rw [hacc] at hmt hcalled
      simp only [if_true, Bool.and_true] at hmt hcalled
      obtain ⟨r1, r2, r3, r4⟩ := hacp hacc
      obtain ⟨t1, t2⟩ := htick (S.countF s.ext.metrics n) n.isDir
      refine ⟨by rw [hmt, t1]; exact r1, by rw [hmt, t2]; exact r2, ?_, ?_⟩
      · rw [hmt, hcalled]
        unfold Metrics.count at r3 ⊢
        rw [t1, t2, r3]
        have := h.now
        unfold Metrics.count at this
        rw [this]
        simp only [List.map_append, List.sum_append, List.map_cons, List.map_nil, List.sum_cons, List.sum_nil]
        omega
      · rw [hmt, hcalled]
        unfold Metrics.count at r4 ⊢
        rw [t1, r4]
        have := h.kept
        unfold Metrics.count at this
        rw [this]
        simp only [List.map_append, List.sum_append, List.map_cons, List.map_nil, List.sum_cons, List.sum_nil]
        omega

/-- C33 (partial: a node filter without a child filter is the exception, `C33_node_filter_loses_children`; a sample
filter likewise). DirectoriesWithFiles without filter, or with a child filter (alone or next to a node filter), with the
default read hook: every directory delivered carries in Children exactly its files, those the child filter keeps, in the
order of the sort hook; found + filtered-out child metrics have grown by the number of files in the delivered
directories, the found one by the number of files delivered as Children. `at_` pairs each handler call with the directory `g` it was for. -/
theorem C33_children_partial (S : Setup) (ho : S.Ordinary) (hcalm : S.Calm) (hsub : S.nav.sub = .directoriesWithFiles)
    (hk : S.filter.child.isSome = true ∨ S.filter.primary = none)
    (hnode : ∀ m, S.filter.primary ≠ some (.sample m))
    (hread : S.nav.read = defaultRead) (hsort : SortPermutes S.nav)
    (C : Client κ) (x : κ) (carried : Metrics) (target pre : Path) (fs : FS) :
    let w := (S.session C x carried target pre fs).2.ext
    ∃ at_ : List (Hit × FS), at_.map Prod.fst = w.hits ∧
      (∀ p ∈ at_, FS.At pre fs p.1.parcel.node.path p.2 ∧
        p.1.parcel.children = (S.nav.sortEntries p.2.fileEntries).filter S.keeps ∧
        p.1.parcel.children.Perm (p.2.fileEntries.filter S.keeps)) ∧
      w.metrics.count .childFound + w.metrics.count .childFilteredOut =
        (S.world x carried).metrics.count .childFound + (S.world x carried).metrics.count .childFilteredOut +
        (at_.map (fun p => p.2.fileEntries.length)).sum ∧
      w.metrics.count .childFound = (S.world x carried).metrics.count .childFound + (w.hits.map (fun h => h.parcel.children.length)).sum := by
  intro w
  have hs : S.Sane := ⟨hcalm, fun _ => Or.inr hsub⟩
  have hplain := plainInv_session S ho hs C x carried target pre fs
  have hch := childrenOf_keeps S hsub hk
  -- every call is for a node of the file system
  have hat : ∀ hit ∈ w.hits, ∃ g, FS.At pre fs hit.parcel.node.path g ∧ hit.parcel.node.filesRead = g.fileEntries := by
    intro hit hm
    have h1 := C18_handler_panic S ho hs C x carried target pre fs hit hm
    obtain ⟨g, ps, hg, hn, _⟩ := delivered_at S.nav (S.env C (pre ++ [fs.name]) target) (S.world x carried) pre fs hread
      hsort hit.parcel.node (List.mem_map.2 ⟨_, h1, rfl⟩)
    refine ⟨g, hg, ?_⟩
    rw [hn]; exact filesRead_at S.nav hsub hread g _ _ _
  have hpair : ∀ l : List Hit, (∀ hit ∈ l, ∃ g, FS.At pre fs hit.parcel.node.path g ∧
      hit.parcel.node.filesRead = g.fileEntries) → ∃ ps : List (Hit × FS), ps.map Prod.fst = l ∧ ∀ p ∈ ps,
      FS.At pre fs p.1.parcel.node.path p.2 ∧ p.1.parcel.node.filesRead = p.2.fileEntries := by
    intro l
    induction l with
    | nil => intro _; exact ⟨[], rfl, by simp⟩
    | cons h l ih =>
      intro hl
      obtain ⟨g, hg⟩ := hl h (by simp)
      obtain ⟨ps, h1, h2⟩ := ih (fun k hk => hl k (by simp [hk]))
      exact ⟨(h, g) :: ps, by simp [h1], by
        intro p hp
        rcases List.mem_cons.1 hp with rfl | hp
        · exact hg
        · exact h2 p hp⟩
  obtain ⟨ps, hp1, hp2⟩ := hpair w.hits hat
  refine ⟨ps, hp1, ?_, ?_⟩
  · intro p hp
    obtain ⟨q1, q2⟩ := hp2 p hp
    have hc : p.1.parcel.children = (S.nav.sortEntries p.2.fileEntries).filter S.keeps := by
      rw [hplain.children p.1 (by show p.1 ∈ w.hits; rw [← hp1]; exact List.mem_map_of_mem hp), hch, q2]
    refine ⟨q1, hc, ?_⟩
    rw [hc]
    exact (sortEntries_perm S.nav hsort _).filter _
  · have hkept : w.hits.map (fun h => h.parcel.children.length) =
        w.called.map (fun n => ((S.nav.sortEntries n.filesRead).filter S.keeps).length) := by
      simp only [World.called, List.map_map]
      apply List.map_congr_left
      intro hit hm
      simp only [Function.comp_def]
      rw [hplain.children hit hm, hch]
    have key := plain_session_inv ho hs C x carried target pre fs
      (Q := fun w _ => ChildCounts S ((S.world x carried).metrics.count .childFound +
        (S.world x carried).metrics.count .childFilteredOut) ((S.world x carried).metrics.count .childFound) w) ?_ ?_ ?_ ?_
    · refine ⟨?_, by rw [hkept]; exact key.kept⟩
      have h := key.now
      show w.metrics.count .childFound + w.metrics.count .childFilteredOut = _
      rw [h]
      congr 2
      have : ps.map (fun p => p.2.fileEntries.length) =
          (ps.map Prod.fst).map (fun hit => (S.nav.sortEntries hit.parcel.node.filesRead).length) := by
        rw [List.map_map]
        apply List.map_congr_left
        intro p hp
        simp only [Function.comp_def]
        rw [(hp2 p hp).2, sortEntries_length _ hsort]
      rw [this, hp1]
      simp only [World.called, List.map_map, Function.comp_def]
      rfl
    · exact childCounts_start S x carried
    · intro w l n h; exact ⟨by simpa using h.regF, by simpa using h.regO, by simpa [World.called] using h.now, by simpa [World.called] using h.kept⟩
    · intro w l k sv h; exact ⟨h.regF, h.regO, h.now, h.kept⟩
    · intro s n rep w' _ _ hp h; exact childCounts_step S hsub hk hnode C hp h

/-- Not vacuous: a child filter dropping "y" and "g", and a node filter dropping r/c. -/
example :
    let S : Setup := { nav := Demo.nav .directoriesWithFiles, filter := { primary := some (.node fun n => n.name != "c"), child := some (fun e => e.name != "y" && e.name != "g") } }
    let w := (S.session (Demo.client Demo.quiet) () (fun _ => none) [] [] Demo.fs).2.ext
    w.hits.map (fun h => (h.parcel.node.path, h.parcel.children.map (·.name))) =
      [(["r"], ["f"]), (["r", "a"], ["x"]), (["r", "a", "b"], ["z"])] ∧
    w.metrics.count .childFound = 3 ∧ w.metrics.count .childFilteredOut = 2 := by
  decide +kernel

end Traverse
