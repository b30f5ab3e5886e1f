import Verif.Props.Screened
import Verif.Props.Again
import Verif.Props.Api3
/-
C33 for resumes by spawning: the Children of the directories delivered by a resumed session, and the child metrics.
-/
namespace Traverse
variable {κ : Type}

theorem rest_filter {P : Platform κ} {sub} {st : Option Strategy} {o o₁ : Options κ} {S : Setup} (hb : buildRest P sub st o = .ready S o₁) :
    ∃ o', registerFilter P.engine o = .ok (S.filter, o') ∧ o₁ = initSampling o' := by
  simp only [buildRest] at hb
  by_cases hu : sub = .undefined
  · rw [if_pos hu] at hb; cases hb
  · rw [if_neg hu] at hb
    cases hr : registerFilter P.engine o with
    | err e => rw [hr] at hb; cases hb
    | panic => rw [hr] at hb; cases hb
    | ok f =>
      rw [hr] at hb
      simp only at hb
      cases hi : initHibernation P.engine f.2 with
      | err e => rw [hi] at hb; cases hb
      | panic => rw [hi] at hb; cases hb
      | ok hib =>
        rw [hi] at hb
        simp only [Built.ready.injEq] at hb
        exact ⟨f.2, by rw [← hb.1], hb.2.symm⟩

theorem pair_each {α β : Type} (R : α → β → Prop) : ∀ l : List α, (∀ a ∈ l, ∃ b, R a b) →
    ∃ ps : List (α × β), ps.map Prod.fst = l ∧ ∀ p ∈ ps, R p.1 p.2 := by
  intro l
  induction l with
  | nil => intro _; exact ⟨[], rfl, by simp⟩
  | cons h l ih =>
    intro hl
    obtain ⟨g, hg⟩ := hl h (by simp)
    obtain ⟨ps, h1, h2⟩ := ih (fun k hk => hl k (by simp [hk]))
    refine ⟨(h, g) :: ps, by simp [h1], fun p hp => ?_⟩
    rcases List.mem_cons.1 hp with rfl | hp
    · exact hg
    · exact h2 p hp

/-- **C33** (resumed by spawning; partial as `C33_session_partial` is). A DirectoriesWithFiles session is resumed; `o` are the options
loaded from the file and changed by the settings: no filter, or a child filter (alone or next to a node filter), no sampling, the default
read hook; filters and conditions of hibernation do not panic. Every directory delivered carries in Children exactly those of its files
that are wanted, in the order of the sort hook, whether the directory is a seed of the resume or lies below one. The child metrics
continue those of the saved state `a`. -/
theorem C33_resumed_partial (P : Platform κ) (r : Relic κ) (settings : List (Option (Setting κ))) (files : String → Except Err Json) (disk : Disk)
    (S : Setup) (o o₁ : Options κ) (h : κ → Parcel → κ × Reply) (a : Active) (pre : Path) (fs : FS)
    (hr : Resumed P r settings files S o₁ h a) (hst : r.strategy = .spawn) (hload : resumePlatform P r settings (files r.from) = .ok (o, a))
    (hsub : a.sub = .directoriesWithFiles) (wants : String → Bool) (hw : o.filter.Wants P.engine wants) (hsample : o.filter.sample = none)
    (hsampling : o.sampling.type = .undefined) (hread : ∀ r, o.hooks.readDirectory.invoke r = defaultRead r.1 r.2)
    (hsort : ∀ l, (o.hooks.sort.invoke l).Perm l) (hin : Within disk o pre fs) (hcalm : S.Calm) (x : κ) :
    let rep := walkResume P (.relic r) settings files disk x
    ∃ at_ : List (Hit × FS), at_.map Prod.fst = rep.hits ∧
      (∀ p ∈ at_, FS.At pre fs p.1.parcel.node.path p.2 ∧
        p.1.parcel.children = ((o.nav a.sub).sortEntries p.2.fileEntries).filter (fun e => wants e.name) ∧
        p.1.parcel.children.Perm (p.2.fileEntries.filter (fun e => wants e.name))) ∧
      (rep.verdict ≠ .panic → rep.metrics.count .childFound =
        a.metrics.count .childFound + (rep.hits.map (fun h => h.parcel.children.length)).sum ∧
        (S.filter.active = true ∨ a.metrics.count .childFilteredOut = 0 → rep.metrics.count .childFound + rep.metrics.count .childFilteredOut =
          a.metrics.count .childFound + a.metrics.count .childFilteredOut + (at_.map (fun p => p.2.fileEntries.length)).sum)) := by
  intro rep
  obtain ⟨o', hl', hb⟩ := hr.built
  rw [hload] at hl'
  cases hl'
  obtain ⟨o', hreg, ho₁⟩ := rest_filter hb
  obtain ⟨rfl, hk, hnode, hwants⟩ := registered_children (o := o.afterwards) hreg hsample hw
  have hact : o.afterwards.sampling.active = false := by
    show o.sampling.active = false
    simp [SamplingOptions.active, hsampling]
  have ho₁ : o₁ = o.afterwards := by simpa [initSampling, hact] using ho₁
  obtain ⟨hres, hnav⟩ := hr.setup
  have hSsub : S.nav.sub = .directoriesWithFiles := by rw [hnav]; exact hsub
  have hSr : S.nav.read = defaultRead := by rw [hnav, ho₁]; funext l e; exact hread (l, e)
  have hSs : S.nav.sort = o.hooks.sort.invoke := by rw [hnav, ho₁]; rfl
  have hSe : S.nav.sortEntries = (o.nav a.sub).sortEntries := by funext l; simp only [Nav.sortEntries, hSs]; rfl
  have hSk : S.keeps = fun e => wants e.name := by funext e; exact hwants e
  have hSp : SortPermutes S.nav := fun l => by rw [hSs]; exact hsort l
  have hord : S.Ordinary := Or.inr (by rw [hres, hst])
  have hsane : S.Sane := ⟨hcalm, fun _ => Or.inr hSsub⟩
  have hch := childrenOf_keeps S hSsub hk
  obtain ⟨f1, f2, f3, -⟩ := resumed_facts (disk := disk) hr x
  have hat : ∀ hit ∈ rep.hits, ∃ g, FS.At pre fs hit.parcel.node.path g ∧ hit.parcel.node.filesRead = g.fileEntries := by
    intro hit hm
    obtain ⟨g, ps, h1, h2, -⟩ := resumed_at (pre := pre) (fs := fs) hr ⟨hin.part, by rw [ho₁]; exact hin.status⟩ (by rw [← hnav]; exact hSp)
      (defaultRead_selects _ (by rw [← hnav]; exact hSr)) x hit.parcel.node (List.mem_map_of_mem hm)
    refine ⟨g, h1, ?_⟩
    rw [h2]
    exact filesRead_at _ hsub (by rw [← hnav]; exact hSr) g _ _ _
  obtain ⟨ps, hp1, hp2⟩ := pair_each _ _ hat
  generalize hrun : resumeRun S o₁ (o₁.client h) disk r.strategy a (startWorld S (o₁.client h) r.strategy a x) = run at f1 f2 f3
  rw [hst] at hrun
  simp only [resumeRun] at hrun
  have hI0 : PlainInv S a.metrics ⟨a.depth, startWorld S (o₁.client h) .spawn a x, []⟩ := by
    refine (plainInv_start S hord x a.metrics).same ?_ ?_ ?_ ?_ ?_ ?_ rfl
    · simp [startWorld, St.fresh]
    · simp [startWorld, St.fresh]
    · simp [startWorld, St.fresh]
    · simp only [startWorld, if_true]
      exact filter_isHib_pub (by simp) (by simp)
    · simp [startWorld, St.fresh]
    · simp [startWorld, St.fresh]
  have key := crown_invOn (fault := o₁.fault) (plain_preserved hord hsane (o₁.client h) a.metrics a.tree a.currentPath
    (fun w _ => ChildCounts S ((S.world x a.metrics).metrics.count .childFound + (S.world x a.metrics).metrics.count .childFilteredOut)
      ((S.world x a.metrics).metrics.count .childFound) w)
    (fun w l n h => ⟨by simpa using h.regF, by simpa using h.regO, by simpa [World.called] using h.now, by simpa [World.called] using h.kept⟩)
    (fun w l k sv h => ⟨h.regF, h.regO, h.now, h.kept⟩)
    (fun s n rep w' _ _ hp h' => childCounts_step S hSsub hk hnode (o₁.client h) hp h'))
    (fun s p e h => ⟨h.1.same rfl rfl rfl rfl rfl rfl rfl, h.2.regF, h.2.regO, h.2.now, h.2.kept⟩) S.nav
    (fun ps path t d => mkNode_good S.nav ps path t d)
    (statOf S.nav o₁ disk) disk a.tree a.currentPath.reverse true ⟨a.depth, startWorld S (o₁.client h) .spawn a x, []⟩ ⟨hI0, by
      have h := childCounts_start S x a.metrics
      exact ⟨by simpa [startWorld] using h.regF, by simpa [startWorld] using h.regO, by simpa [startWorld, World.called] using h.now,
        by simpa [startWorld, World.called] using h.kept⟩⟩
  rw [hrun] at key
  obtain ⟨hI, hC⟩ := key
  have hchild : ∀ hit ∈ rep.hits, hit.parcel.children = (S.nav.sortEntries hit.parcel.node.filesRead).filter S.keeps := by
    intro hit hm
    rw [show rep.hits = _ from f2] at hm
    rw [hI.children hit hm, hch]
  refine ⟨ps, hp1, ?_, ?_⟩
  · intro p hp
    obtain ⟨q1, q2⟩ := hp2 p hp
    have hc : p.1.parcel.children = ((o.nav a.sub).sortEntries p.2.fileEntries).filter (fun e => wants e.name) := by
      rw [hchild p.1 (by rw [← hp1]; exact List.mem_map_of_mem hp), q2, hSe, hSk]
    refine ⟨q1, hc, ?_⟩
    rw [hc, ← hSe]
    exact (sortEntries_perm S.nav hSp _).filter _
  · intro hnp
    obtain ⟨hm, -⟩ := f3 hnp
    have hregF : (S.metrics .childFound) ≠ none := by
      unfold Setup.metrics
      repeat' split
      all_goals simp [Metrics.many, Metrics.single]
    have hzero : ∀ k, S.metrics.count k = 0 := by
      intro k
      simp only [Metrics.count, Setup.metrics]
      by_cases h1 : Role.nanny ∈ S.decorators <;> by_cases h2 : Role.clientFilter ∈ S.decorators <;>
        simp only [h1, h2, if_true, if_false] <;> cases k <;> rfl
    have w1 : (S.world x a.metrics).metrics.count .childFound = a.metrics.count .childFound := by
      simp only [Setup.world]
      rw [merge_count (fun h => absurd h hregF), hzero, Nat.zero_add]
    have hkept := hC.kept
    have hnow := hC.now
    rw [w1] at hkept hnow
    have e1 : rep.hits.map (fun h => h.parcel.children.length) =
        run.2.2.ext.called.map (fun n => ((S.nav.sortEntries n.filesRead).filter S.keeps).length) := by
      simp only [World.called, List.map_map]
      rw [← f2]
      apply List.map_congr_left
      intro hit hm
      simp only [Function.comp_def]
      rw [hchild hit hm]
    have e2 : ps.map (fun p => p.2.fileEntries.length) = run.2.2.ext.called.map (fun n => (S.nav.sortEntries n.filesRead).length) := by
      have : ps.map (fun p => p.2.fileEntries.length) =
          (ps.map Prod.fst).map (fun hit => (S.nav.sortEntries hit.parcel.node.filesRead).length) := by
        rw [List.map_map]
        apply List.map_congr_left
        intro p hp
        simp only [Function.comp_def]
        rw [(hp2 p hp).2, sortEntries_length _ hSp]
      rw [this, hp1, f2]
      simp only [World.called, List.map_map, Function.comp_def]
    rw [hm, e1, e2]
    refine ⟨hkept, fun hor => ?_⟩
    rw [hnow]
    congr 2
    rcases hor with hf | hz
    · have hregO : (S.metrics .childFilteredOut) ≠ none := by
        have hdec : Role.clientFilter ∈ S.decorators := by simp [Setup.decorators, Setup.activeRoles, hf]
        unfold Setup.metrics
        simp only [hdec, if_true]
        split <;> simp [Metrics.many, Metrics.single]
      simp only [Setup.world]
      rw [merge_count (fun h => absurd h hregO), hzero, Nat.zero_add]
    · have h0 := hzero .childFilteredOut
      simp only [Setup.world]
      rw [hz]
      simp only [Metrics.count, Metrics.merge] at h0 hz ⊢
      revert h0 hz
      cases S.metrics .childFilteredOut <;> cases a.metrics .childFilteredOut <;> simp
      omega

/-- Not vacuous: the demo session saved in /r/a/b, resumed with a child filter against what is called "y"; and without
(then the number of children filtered out before is not carried on). The files among the seeds come with no Children. -/
example :
    let P := sortPlatform
    let h := Demo.byPath Demo.quiet
    let s : Saved := { savedAt ["r"] ["r", "a", "b"] .directoriesWithFiles with
      active := { (savedAt ["r"] ["r", "a", "b"] .directoriesWithFiles).active with
        metrics := fun k => if k = .childFound then some 3 else if k = .childFilteredOut then some 2 else none } }
    let files := savedFile (defaultOptions P) s
    let r := Demo.relic .spawn Demo.quiet
    let cd : ChildDef := { type := .regex, pattern := "y", negate := true }
    let settings := settingsOf P [some (.filter { child := some cd } none)]
    let rep := walkResume P (.relic r) settings files (diskOf [] Demo.fs) 0
    let bare := walkResume P (.relic r) [] files (diskOf [] Demo.fs) 0
    let shown (rep : Report Nat) := (rep.hits.map (fun h => (h.parcel.node.path, h.parcel.children.map (·.name))),
      rep.metrics.count .childFound, rep.metrics.count .childFilteredOut)
    (∃ S o₁ o wants, Resumed P r settings files S o₁ h s.active ∧ resumePlatform P r settings (files r.from) = .ok (o, s.active) ∧
      o.filter.Wants P.engine wants ∧ o.filter.sample = none ∧ o.sampling.type = .undefined ∧
      (∀ r, o.hooks.readDirectory.invoke r = defaultRead r.1 r.2) ∧ (∀ l, (o.hooks.sort.invoke l).Perm l) ∧
      Within (diskOf [] Demo.fs) o [] Demo.fs ∧ S.Calm ∧ S.filter.active = true) ∧
    shown rep = ([(["r", "a", "b"], ["z"]), (["r", "a", "x"], []), (["r", "c"], ["w"]), (["r", "f"], []), (["r", "g"], [])], 5, 3) ∧
    shown bare = ([(["r", "a", "b"], ["y", "z"]), (["r", "a", "x"], []), (["r", "c"], ["w"]), (["r", "f"], []), (["r", "g"], [])], 6, 0) := by
  intro P h s files r cd settings rep bare shown
  refine ⟨?_, by decide +kernel⟩
  obtain ⟨doc, h1, h2⟩ := roundTrip sortPlatform (defaultOptions sortPlatform) s
  have hf : files r.from = .ok doc := by
    show (match marshal (defaultOptions sortPlatform) s with | .ok d => (.ok d : Except Err Json) | .error _ => .error (.code 5)) = _
    rw [h1]
  have hplat (ws) : resumePlatform sortPlatform r (settingsOf sortPlatform ws) (.ok doc) =
      .ok ((bindOptions (fromJSON sortPlatform (toJSON (defaultOptions sortPlatform))) (settingsOf sortPlatform ws)).1, s.active) := by
    simp only [resumePlatform, h2, bindOptions, applyAll_settings]
    rfl
  have key : ∃ S o₁ o, (bindOptions (fromJSON sortPlatform (toJSON (defaultOptions sortPlatform))) settings).1 = o ∧
      buildRest P s.active.sub (some r.strategy) o.afterwards = .ready S o₁ ∧ o.filter.child = some cd ∧ o.filter.sample = none ∧
      o.sampling.type = .undefined ∧ (∀ r, o.hooks.readDirectory.invoke r = defaultRead r.1 r.2) ∧ (∀ l, (o.hooks.sort.invoke l).Perm l) ∧
      (∀ r, o.hooks.queryStatus.invoke r = r) ∧ S.Calm ∧ S.filter.active = true :=
    ⟨_, _, _, rfl, rfl, rfl, rfl, rfl, fun _ => rfl, fun l => (insertSort_sorts _ l).1, fun _ => rfl, ⟨fun _ => rfl, fun _ _ => ⟨rfl, rfl⟩⟩, rfl⟩
  obtain ⟨S, o₁, o, e1, e2, e3, e4, e5, e6, e7, e8, e9, e10⟩ := key
  have hl : resumePlatform P r settings (files r.from) = .ok (o, s.active) := by rw [hf, ← e1]; exact hplat _
  refine ⟨S, o₁, o, fun name => !P.engine.regex cd.pattern name, ⟨rfl, o, hl, e2⟩, hl, .inl ⟨cd, e3, by decide, .inr ⟨rfl, fun name => ?_⟩⟩,
    e4, e5, e6, e7, ⟨diskOf_part _ _, e8⟩, e9, e10⟩
  show (!P.engine.regex cd.pattern name) = true ↔ (P.engine.regex cd.pattern name = true ↔ true = false)
  generalize P.engine.regex cd.pattern name = b
  cases b <;> simp

end Traverse
