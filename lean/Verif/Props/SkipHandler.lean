import Verif.Props.Skipping
import Verif.Props.Skips
import Verif.Props.Family
/-
C16 for resumed sessions: a skip handler that answers by the path.
-/
namespace Traverse
variable {κ σ τ : Type}

/-- What a skip handler is to answer for a directory so that what is below it is visited. -/
def Lets (sub : Subscription) (sk : Skip) : Prop :=
  sk = .none ∨ ((sub = .directories ∨ sub = .directoriesWithFiles) ∧ sk ≠ .all)

instance (sub sk) : Decidable (Lets sub sk) := by unfold Lets; infer_instance

theorem cuts_lets (sub : Subscription) (sk : Skip) : cuts sub sk = false ↔ Lets sub sk := by
  cases sub <;> cases sk <;> simp [cuts, Lets]

/-- Nothing above is cut off, told of the Parents. -/
theorem uncut_parents {c : Nav} {t : Tree} (hwf : t.WF) {pp : Path} {d : Int} {it : Item} (hit : it ∈ items c [] pp d t) (ans : Path → Skip) :
    uncut c.sub ans ((items c [] pp d t).map (·.node.path)) it.node = decide (∀ q ∈ it.node.parents, Lets c.sub (ans q.path)) := by
  have hl := items_lineage hwf hit
  simp only [uncut, decide_eq_decide, List.mem_map]
  constructor
  · intro h q hq
    obtain ⟨i, hi⟩ := List.getElem?_of_mem hq
    obtain ⟨e1, -, -⟩ := hl.each i q hi
    have hlen := (List.getElem?_eq_some_iff.1 hi).1
    have hc := hl.count
    have hpre : pp ++ [t.name] <+: q.path := by
      rw [e1]
      refine List.prefix_of_prefix_length_le hl.below (List.take_prefix _ _) ?_
      rw [List.length_take]; omega
    have hab : Above q.path it.node.path := by
      refine ⟨by rw [e1]; exact List.take_prefix _ _, fun he => ?_⟩
      have := congrArg List.length he
      rw [e1, List.length_take] at this
      omega
    obtain ⟨j, hj, hjp⟩ := items_ancestor c t [] pp d it hit q.path hpre hab.1
    rw [← cuts_lets]
    cases hc : cuts c.sub (ans q.path) with
    | false => rfl
    | true => exact absurd hab (h q.path ⟨j, hj, hjp⟩ hc)
  · rintro h p ⟨j, hj, rfl⟩ hc hab
    obtain ⟨p1, -⟩ := items_path c t [] pp d j hj
    have hlt : j.node.path.length < it.node.path.length := by
      rcases Nat.lt_or_ge j.node.path.length it.node.path.length with h | h
      · exact h
      · exact absurd (hab.1.eq_of_length_le h) hab.2
    have hle := p1.length_le
    have hcnt := hl.count
    have hi : it.node.path.length - j.node.path.length - 1 < it.node.parents.length := by omega
    have := h _ (List.getElem_mem hi)
    obtain ⟨e1, -, -⟩ := hl.each _ _ (List.getElem?_eq_getElem hi)
    have e2 : it.node.parents[it.node.path.length - j.node.path.length - 1].path = j.node.path := by
      rw [e1, List.prefix_iff_eq_take.1 hab.1]
      congr 1
      simp only [List.length_take]
      omega
    rw [e2, ← cuts_lets, hc] at this
    cases this

/-- What the skip handler leaves of a run. -/
def LeftOf (sub : Subscription) (ans : Path → Skip) (v v0 : List Ev) : Prop :=
  invoked v = (invoked v0).filter (fun n => decide (∀ q ∈ n.parents, Lets sub (ans q.path)))

/-- One navigation. -/
theorem top_left {c : Nav} {env : Env σ} {env0 : Env τ} {fault fault0} {stat : Path → RootStat} (hsort : SortPermutes c) (hread : c.read = defaultRead)
    (hstat : ∀ p t, stat p = .found t → ∃ f : FS, t = prep c f ∧ f.Distinct)
    (ans : Path → Skip) (hnil : AlwaysNil env) (hans : ∀ x n re, (env.ask x n re).2 = (ans n.path, none)) (hnil0 : AlwaysNil env0) (hskip0 : DefaultSkip env0)
    (hfault : ∀ k k' p e, (fault k p e).2 = (fault0 k' p e).2) (parent path : Path) (s : St σ) (s0 : St τ)
    (hd : s.depth = s0.depth) (hs : ∀ ev ∈ s.log, EvFrom env ev) (hs0 : ∀ ev ∈ s0.log, EvFrom env0 ev) :
    let r := top c env fault parent path (stat path) s
    let r0 := top c env0 fault0 parent path (stat path) s0
    ∃ v v0, r.2.log = s.log ++ v ∧ r0.2.log = s0.log ++ v0 ∧ r.2.depth = s.depth ∧ r0.2.depth = s0.depth ∧
      (∀ ev ∈ r.2.log, EvFrom env ev) ∧ (∀ ev ∈ r0.2.log, EvFrom env0 ev) ∧ LeftOf c.sub ans v v0 ∧ r.1 = r0.1 := by
  intro r r0
  rcases hst : stat path with e | t
  · refine ⟨[], [], by simp [r, top, hst], by simp [r0, top, hst], by simp [r, top, hst], by simp [r0, top, hst], by simpa [r, top, hst] using hs,
      by simpa [r0, top, hst] using hs0, by simp [LeftOf, invoked, calls], ?_⟩
    simp [r, r0, top, hst, hfault s.ext s0.ext]
  · obtain ⟨f, hf, hdf⟩ := hstat _ _ hst
    have hsel := defaultRead_selects _ hread
    have hdist : t.Distinct := by rw [hf]; exact prep_distinct _ hsort hsel f hdf
    have hwf : t.WF := by rw [hf]; exact prep_wf _ hsort hsel f
    have er : r = ((traverse c env [] parent t s).1.final, (traverse c env [] parent t s).2) := by simp only [r, top, hst]
    have er0 : r0 = ((traverse c env0 [] parent t s0).1.final, (traverse c env0 [] parent t s0).2) := by simp only [r0, top, hst]
    have hfrom : ∀ ev ∈ r.2.log, EvFrom env ev := by rw [er]; exact log_from c env t [] parent s hs
    have hfrom0 : ∀ ev ∈ r0.2.log, EvFrom env0 ev := by rw [er0]; exact log_from c env0 t [] parent s0 hs0
    obtain ⟨v, h1, h2, h3⟩ := traverse_leg c env parent t s
    obtain ⟨v0, k1, k2, k3⟩ := traverse_leg c env0 parent t s0
    have hv : r.2.log = s.log ++ v := by rw [er]; exact h1
    have hv0 : r0.2.log = s0.log ++ v0 := by rw [er0]; exact k1
    refine ⟨v, v0, hv, hv0, by rw [er]; exact h2, by rw [er0]; exact k2, hfrom, hfrom0, ?_⟩
    cases htd : tooDeep c s.depth with
    | true =>
      have e1 : v = [] := by
        clear hf hdist hwf hst er er0 h3 k3
        cases t
        rw [traverse] at h1
        simpa [htd] using h1
      have e2 : v0 = [] := by
        rw [hd] at htd
        clear hf hdist hwf hst er er0 h3 k3
        cases t
        rw [traverse] at k1
        simpa [htd] using k1
      subst e1 e2
      refine ⟨by simp [LeftOf, invoked, calls], ?_⟩
      rw [er, er0]
      have htd' := htd
      rw [hd] at htd'
      clear hf hdist hwf hst er er0 h3 k3 h1 h2 k1 k2
      cases t
      simp only [traverse, htd, htd', if_true]
    | false =>
      obtain ⟨vs, -, g2, g3⟩ := top_run c env parent t s htd
      have hvs : acts v = vs := by
        rw [h1, acts_append] at g2
        exact List.append_cancel_left g2
      obtain ⟨vs0, -, l2, l3⟩ := top_run c env0 parent t s0 (by rw [← hd]; exact htd)
      have hvs0 : acts v0 = vs0 := by
        rw [k1, acts_append] at l2
        exact List.append_cancel_left l2
      rw [← hvs] at g3
      rw [← hvs0, ← hd] at l3
      have hpre := items_preOrder c t hdist [] parent s.depth
      have hmin := items_depth c t [] parent s.depth
      have hroot := items_root c t [] parent s.depth
      have hshut := items0_shut c hsort hread f hdf [] parent s.depth
      rw [← hf] at hshut
      have hleaf := items_leaf c t hwf hdist [] parent s.depth
      obtain ⟨m1, m2⟩ := l3.accepting (by
          intro n q hm
          obtain ⟨y, hy⟩ := hfrom0 (.invoke n q) (by rw [hv0]; exact List.mem_append_right _ ((mem_acts_iff rfl).1 hm))
          rw [← hy]; exact hnil0 y n) (by
          intro n re sk e hm
          obtain ⟨y, hy⟩ := hfrom0 (.ask n re sk e) (by rw [hv0]; exact List.mem_append_right _ ((mem_acts_iff rfl).1 hm))
          have := hskip0 y n re
          rw [hy] at this
          simpa using this) (fun _ => hshut) (fun _ => hleaf) hpre hmin hroot
      obtain ⟨p1, p2⟩ := g3.skipping ans (by
          intro n q hm
          obtain ⟨y, hy⟩ := hfrom (.invoke n q) (by rw [hv]; exact List.mem_append_right _ ((mem_acts_iff rfl).1 hm))
          rw [← hy]; exact hnil y n) (by
          intro n re sk e hm
          obtain ⟨y, hy⟩ := hfrom (.ask n re sk e) (by rw [hv]; exact List.mem_append_right _ ((mem_acts_iff rfl).1 hm))
          have := hans y n re
          rw [hy] at this
          simpa using this) (fun _ => hshut) (fun _ => hleaf) hpre hroot
      rw [invoked_acts] at m1 p1
      refine ⟨?_, by rw [er, er0]; exact p2.trans m2.symm⟩
      rw [LeftOf, p1, m1]
      refine List.filter_congr fun m hm => ?_
      obtain ⟨it, hit, rfl⟩ := List.mem_map.1 (List.mem_filter.1 hm).1
      exact uncut_parents hwf hit ans

/-- All of them. -/
theorem legs_left {c : Nav} {env : Env σ} {env0 : Env τ} {fault fault0} {stat : Path → RootStat} (hsort : SortPermutes c) (hread : c.read = defaultRead)
    (hstat : ∀ p t, stat p = .found t → ∃ f : FS, t = prep c f ∧ f.Distinct)
    (ans : Path → Skip) (hnil : AlwaysNil env) (hans : ∀ x n re, (env.ask x n re).2 = (ans n.path, none)) (hnil0 : AlwaysNil env0) (hskip0 : DefaultSkip env0)
    (hfault : ∀ k k' p e, (fault k p e).2 = (fault0 k' p e).2) (legs : List (Path × String)) :
    ∀ (s : St σ) (s0 : St τ), s.depth = s0.depth → (∀ ev ∈ s.log, EvFrom env ev) → (∀ ev ∈ s0.log, EvFrom env0 ev) →
    ∃ v v0, (goLegs c env fault stat legs s).2.log = s.log ++ v ∧ (goLegs c env0 fault0 stat legs s0).2.log = s0.log ++ v0 ∧
      LeftOf c.sub ans v v0 ∧ (goLegs c env fault stat legs s).1 = (goLegs c env0 fault0 stat legs s0).1 := by
  induction legs with
  | nil =>
    intro s s0 _ _ _
    exact ⟨[], [], by simp [goLegs], by simp [goLegs], by simp [LeftOf, invoked, calls], rfl⟩
  | cons l ls ih =>
    intro s s0 hd hs hs0
    obtain ⟨v, v0, h1, h2, h3, h4, h5, h6, h7, h8⟩ :=
      top_left (parent := l.1) (path := l.1 ++ [l.2]) hsort hread hstat ans hnil hans hnil0 hskip0 hfault s s0 hd hs hs0
    simp only [goLegs]
    rcases ht : top c env fault l.1 (l.1 ++ [l.2]) (stat (l.1 ++ [l.2])) s with ⟨f, s1⟩
    rcases ht0 : top c env0 fault0 l.1 (l.1 ++ [l.2]) (stat (l.1 ++ [l.2])) s0 with ⟨f0, t1⟩
    rw [ht] at h1 h3 h5 h8
    rw [ht0] at h2 h4 h6 h8
    simp only at h1 h2 h3 h4 h5 h6 h8
    subst h8
    obtain ⟨w, w0, g1, g2, g3, g4⟩ := ih s1 t1 (by rw [h3, h4, hd]) h5 h6
    rcases f with (_ | e) | _
    · refine ⟨v ++ w, v0 ++ w0, by rw [g1, h1, List.append_assoc], by rw [g2, h2, List.append_assoc], ?_, g4⟩
      rw [LeftOf, invoked_append', invoked_append', List.filter_append, ← h7, ← g3]
    · exact ⟨v, v0, h1, h2, h7, rfl⟩
    · exact ⟨v, v0, h1, h2, h7, rfl⟩

/-- **C16** (spawn; partial). A resume by spawn whose skip handler answers by the path (never with an error), and the same resume with
the default one, both with handlers that return nil: both return the same and say the same of completeness, and the former's handler is
shown, in the same order and with the same data, exactly the nodes of the latter whose Parents were all let through: answered with
SkipNone, or, by the Directories subscriptions, with SkipDir. Missing, because false: as in `C16_session_partial`. -/
theorem C16_spawn_partial (P : Platform κ) (r : Relic κ) (settings settings₀ : List (Option (Setting κ))) (files : String → Except Err Json)
    (disk : Disk) (o o₀ : Options κ) (h h₀ : κ → Parcel → κ × Reply) (a : Active) (pre : Path) (fs : FS)
    (hplat : resumePlatform P r settings (files r.from) = .ok (o, a)) (hplat₀ : resumePlatform P r settings₀ (files r.from) = .ok (o₀, a))
    (hst : r.strategy = .spawn) (hh : r.handler = some h) (hb : o.Bare) (hb₀ : o₀.Bare) (hu₀ : o₀.Usual)
    (hhooks : o₀.hooks = o.hooks) (hbeh : o₀.behaviours = o.behaviours)
    (hfault : ∀ k k' p e, (o.defects.fault k p e).2 = (o₀.defects.fault k' p e).2)
    (ans : Path → Skip) (hans : ∀ k n re, (o.defects.skip k n re).2 = (ans n.path, none))
    (hsub : a.sub ≠ .undefined) (hin : Within disk o pre fs) (hdistinct : fs.Distinct) (hnil : Handler.Nil h) (hnil₀ : Handler.Nil h₀) (x x' : κ) :
    let rep := walkResume P (.relic r) settings files disk x
    let all := walkResume P (.relic { r with handler := some h₀ }) settings₀ files disk x'
    rep.nodes = all.nodes.filter (fun n => decide (∀ q ∈ n.parents, Lets a.sub (ans q.path))) ∧
    rep.verdict = all.verdict ∧ (rep.verdict ≠ .panic → rep.complete = all.complete) := by
  intro rep all
  have hplat₀' : resumePlatform P { r with handler := some h₀ } settings₀ (files r.from) = .ok (o₀, a) := hplat₀
  obtain ⟨w, h1, h2, h3, h4⟩ := sprout_run (disk := disk) hplat hst hh hb hsub x
  obtain ⟨w0, k1, k2, k3, k4⟩ := sprout_run (disk := disk) (r := { r with handler := some h₀ }) (h := h₀) hplat₀' hst rfl hb₀ hsub x'
  have hnav : o₀.afterwards.nav a.sub = o.afterwards.nav a.sub := by
    simp only [Options.nav, Nav.mk.injEq, true_and]
    refine ⟨?_, ?_, ?_, ?_⟩
    · show o₀.behaviours.sortFilesFirst = _; rw [hbeh]; rfl
    · show o₀.behaviours.cascade.afterwards.depth = _; rw [hbeh]; rfl
    · show (fun l e => o₀.hooks.readDirectory.invoke (l, e)) = _; rw [hhooks]; rfl
    · show o₀.hooks.sort.invoke = _; rw [hhooks]; rfl
  have hstat : ∀ c, statOf c o₀.afterwards disk = statOf c o.afterwards disk := by
    intro c
    funext p
    unfold statOf
    rw [show o₀.afterwards.hooks = o.afterwards.hooks from hhooks]
  have hSn : (sproutSetup o a.sub).nav = o.afterwards.nav a.sub := rfl
  have hSn₀ : (sproutSetup o₀ a.sub).nav = o.afterwards.nav a.sub := hnav
  have hsort : SortPermutes (o.afterwards.nav a.sub) := by rw [← hnav]; exact usual_sort hu₀ _
  have hread : (o.afterwards.nav a.sub).read = defaultRead := by rw [← hnav]; exact usual_read hu₀ _
  rw [hSn] at h1 h2 h3 h4
  rw [hSn₀, hstat] at k1 k2 k3 k4
  have hin' : Within disk o.afterwards pre fs := ⟨hin.part, hin.status⟩
  obtain ⟨v, v0, l1, l2, l3, l4⟩ := legs_left (c := o.afterwards.nav a.sub) (env := bareEnv (sproutSetup o a.sub) (o.client h) a.tree)
    (env0 := bareEnv (sproutSetup o₀ a.sub) (o₀.client h₀) a.tree) (fault := o.fault) (fault0 := o₀.fault)
    (stat := statOf (o.afterwards.nav a.sub) o.afterwards disk) hsort hread
    (fun p t hs => by
      obtain ⟨f, g1, rfl, -⟩ := honest_found hin'.honest hs
      exact ⟨f, rfl, (hin.part _ _ g1).distinct hdistinct⟩)
    ans (bare_nil _ _ hnil) (fun y n re => hans y.client n re) (bare_nil _ _ hnil₀) (usual_skip hu₀ _ _) (fun _ _ _ _ => hfault _ _ _ _)
    (legsOf (o.afterwards.nav a.sub) disk a.tree a.currentPath.reverse true).1
    ⟨a.depth, w, []⟩ ⟨a.depth, w0, []⟩ rfl (by simp) (by simp)
  simp only [List.nil_append] at l1 l2
  rw [l1] at h3
  rw [l2] at k3
  have ec : ∀ (le : Final × Bool) (q q' : Final × St (World κ)), q.1 = q'.1 → (afterLegs le q).1 = (afterLegs le q').1 ∧
      (afterLegs le q).2.1 = (afterLegs le q').2.1 := by
    rintro le ⟨(_ | e) | _, s⟩ ⟨_, s'⟩ rfl <;> exact ⟨rfl, rfl⟩
  obtain ⟨c1, c2⟩ := ec (legsOf (o.afterwards.nav a.sub) disk a.tree a.currentPath.reverse true).2 _ _ l4
  have hv : rep.verdict = all.verdict := by
    rw [show rep.verdict = _ from h1, show all.verdict = _ from k1, c1]
  refine ⟨?_, hv, fun hp => ?_⟩
  · rw [show rep.nodes = _ from h3, show all.nodes = _ from k3]
    exact l3
  · rw [show rep.complete = _ from h4 hp, show all.complete = _ from k4 (by rw [← show rep.verdict = _ from hv]; exact hp), c2]

/-! ### Fastward -/

theorem not_dropped {α : Type} {q : α → Bool} {L : List α} {m : α} (hm : m ∈ L) (hq : q m = false) : m ∈ L.dropWhile q := by
  induction L with
  | nil => simp at hm
  | cons b bs ih =>
    rw [List.dropWhile_cons]
    split
    · rename_i hb
      rcases List.mem_cons.1 hm with rfl | hm
      · rw [hq] at hb; cases hb
      · exact ih hm
    · exact hm

/-- **C16** (fastward; partial). As `C16_spawn_partial`, except that a fastward resume asks the skip handler from the tree on: if all
the directories above the saved path are let through, then the handler is shown the nodes of the resume with the default skip handler
whose Parents were all let through, and if one of them is not, then it is shown none; either way Navigate returns nil, and the session
says it is complete. Missing, because false: as in `C16_session_partial`. -/
theorem C16_fastward_partial (P : Platform κ) (r : Relic κ) (settings settings₀ : List (Option (Setting κ))) (files : String → Except Err Json)
    (disk : Disk) (o o₀ : Options κ) (h h₀ : κ → Parcel → κ × Reply) (a : Active) (pre : Path) (fs : FS)
    (hplat : resumePlatform P r settings (files r.from) = .ok (o, a)) (hplat₀ : resumePlatform P r settings₀ (files r.from) = .ok (o₀, a))
    (hst : r.strategy = .fastward) (hh : r.handler = some h) (hb : o.Bare) (hb₀ : o₀.Bare) (hu₀ : o₀.Usual)
    (hhooks : o₀.hooks = o.hooks) (hbeh : o₀.behaviours = o.behaviours)
    (ans : Path → Skip) (hans : ∀ k n re, (o.defects.skip k n re).2 = (ans n.path, none))
    (hsub : a.sub ≠ .undefined) (hstatus : ∀ r, o.hooks.queryStatus.invoke r = r) (htree : a.tree = pre ++ [fs.name])
    (hdisk : disk a.tree = .ok fs) (hdistinct : fs.Distinct) (hp : Resumable pre fs.name a.currentPath)
    (hnil : Handler.Nil h) (hnil₀ : Handler.Nil h₀) (x x' : κ) :
    let rep := walkResume P (.relic r) settings files disk x
    let all := walkResume P (.relic { r with handler := some h₀ }) settings₀ files disk x'
    let ok : Node → Bool := fun n => decide (∀ q ∈ n.parents, Lets a.sub (ans q.path))
    ((∀ n ∈ all.nodes, n.path = a.currentPath → ok n = true) → rep.nodes = all.nodes.filter ok) ∧
    ((∀ n ∈ all.nodes, n.path = a.currentPath → ok n = false) → rep.nodes = []) ∧
    rep.verdict = .done none ∧ rep.complete = true := by
  intro rep all ok
  have hplat₀' : resumePlatform P { r with handler := some h₀ } settings₀ (files r.from) = .ok (o₀, a) := hplat₀
  obtain ⟨w, h1, h2, h3, -⟩ := doze_walk hplat hst hh hb hsub htree hdisk hstatus hp x
  obtain ⟨w0, k1, k2, -, -⟩ := doze_walk (r := { r with handler := some h₀ }) (h := h₀) hplat₀' hst rfl hb₀ hsub htree hdisk
    (by rw [hhooks]; exact hstatus) hp x'
  have hnav : o₀.afterwards.nav a.sub = o.afterwards.nav a.sub := by
    simp only [Options.nav, Nav.mk.injEq, true_and]
    refine ⟨?_, ?_, ?_, ?_⟩
    · show o₀.behaviours.sortFilesFirst = _; rw [hbeh]; rfl
    · show o₀.behaviours.cascade.afterwards.depth = _; rw [hbeh]; rfl
    · show (fun l e => o₀.hooks.readDirectory.invoke (l, e)) = _; rw [hhooks]; rfl
    · show o₀.hooks.sort.invoke = _; rw [hhooks]; rfl
  have hsort : SortPermutes (o.afterwards.nav a.sub) := by rw [← hnav]; exact usual_sort hu₀ _
  have hread : (o.afterwards.nav a.sub).read = defaultRead := by rw [← hnav]; exact usual_read hu₀ _
  rw [hnav] at k1 k2
  obtain ⟨v, v0, l1, l2, -, -, -, -, l7, l8⟩ := top_left (c := o.afterwards.nav a.sub)
    (env := bareEnv (dozeSetup o a.sub).first ((o.client h).dozing a.currentPath) a.tree)
    (env0 := bareEnv (dozeSetup o₀ a.sub).first ((o₀.client h₀).dozing a.currentPath) a.tree)
    (fault := fun k _ _ => (k, none)) (fault0 := fun k _ _ => (k, none)) (stat := fun _ => .found (prep (o.afterwards.nav a.sub) fs)) hsort hread
    (fun p t hs => ⟨fs, by cases hs; rfl, hdistinct⟩) ans (fun y n => dozing_nil (C := o.client h) hnil _ _ _) (fun y n re => hans _ n re)
    (fun y n => dozing_nil (C := o₀.client h₀) hnil₀ _ _ _) (fun y n re => hu₀.skip _ _ _) (fun _ _ _ _ => rfl) pre a.tree
    (St.fresh w) (St.fresh w0) rfl (by simp [St.fresh]) (by simp [St.fresh])
  have hnil0 := (walk_accepting (o.afterwards.nav a.sub) (bareEnv (dozeSetup o₀ a.sub).first ((o₀.client h₀).dozing a.currentPath) a.tree) w0 pre fs
    hsort (defaultRead_selects _ hread) (fun y n => dozing_nil (C := o₀.client h₀) hnil₀ _ _ _) (fun y n re => hu₀.skip _ _ _) hdistinct
    (fun _ => hread)).2
  change (walk (o.afterwards.nav a.sub) (bareEnv (dozeSetup o a.sub).first ((o.client h).dozing a.currentPath) a.tree) w pre fs).2.log = _ at l1
  change (walk (o.afterwards.nav a.sub) (bareEnv (dozeSetup o₀ a.sub).first ((o₀.client h₀).dozing a.currentPath) a.tree) w0 pre fs).2.log = _ at l2
  change (walk (o.afterwards.nav a.sub) (bareEnv (dozeSetup o a.sub).first ((o.client h).dozing a.currentPath) a.tree) w pre fs).1 =
    (walk (o.afterwards.nav a.sub) (bareEnv (dozeSetup o₀ a.sub).first ((o₀.client h₀).dozing a.currentPath) a.tree) w0 pre fs).1 at l8
  generalize walk (o.afterwards.nav a.sub) (bareEnv (dozeSetup o a.sub).first ((o.client h).dozing a.currentPath) a.tree) w pre fs = D at *
  generalize walk (o.afterwards.nav a.sub) (bareEnv (dozeSetup o₀ a.sub).first ((o₀.client h₀).dozing a.currentPath) a.tree) w0 pre fs = D0 at *
  have hn : rep.nodes = (invoked D.2.log).dropWhile (fun m => !decide (m.path = a.currentPath)) := by
    have e1 : rep.nodes = rep.answers.map Prod.fst := by simp [Report.nodes, Report.answers, List.map_map, Function.comp_def]
    rw [e1, show rep.answers = _ from h2, map_dropWhile_key Prod.fst (fun m : Node => !decide (m.path = a.currentPath))]; rfl
  have hn0 : all.nodes = (invoked D0.2.log).dropWhile (fun m => !decide (m.path = a.currentPath)) := by
    have e1 : all.nodes = all.answers.map Prod.fst := by simp [Report.nodes, Report.answers, List.map_map, Function.comp_def]
    rw [e1, show all.answers = _ from k2, map_dropWhile_key Prod.fst (fun m : Node => !decide (m.path = a.currentPath))]; rfl
  have hl : invoked D.2.log = (invoked D0.2.log).filter ok := by
    rw [l1, l2]; exact l7
  have hv : rep.verdict = .done none := by rw [show rep.verdict = _ from h1, l8, hnil0]; rfl
  have hmem : ∀ m ∈ invoked D0.2.log, m.path = a.currentPath → m ∈ all.nodes := by
    intro m hm hq
    rw [hn0]; exact not_dropped hm (by simp [hq])
  refine ⟨fun hok => ?_, fun hno => ?_, hv, h3 (by rw [show (walkResume P (.relic r) settings files disk x).verdict = _ from hv]; simp)⟩
  · rw [hn, hn0, hl]
    exact filter_dropWhile _ _ _ (fun m hm hq => hok m (hmem m hm (by simpa using hq)) (by simpa using hq))
  · rw [hn, hl]
    refine dropWhile_nil_of fun m hm => ?_
    obtain ⟨hm1, hm2⟩ := List.mem_filter.1 hm
    by_cases hq : m.path = a.currentPath
    · rw [hno m (hmem m hm1 hq) hq] at hm2; cases hm2
    · simp [hq]

/-- Not vacuous: resumes of the demo session from /r/a with a skip handler, and what they show. A fastward resume asks for /r as well. -/
example :
    let P := sortPlatform
    let ask (ans : Path → Skip) : Nat → Node → Option Err → Nat × Skip × Option Err := fun k n _ => (k, ans n.path, none)
    let at' (q : Path) (s : Skip) : Path → Skip := fun p => if p = q then s else .none
    let h := Demo.byPath Demo.quiet
    let r (st : Strategy) := Demo.relic st Demo.quiet
    let files (sub : Subscription) := Demo.saved ["r", "a"] sub
    let disk := diskOf [] Demo.fs
    let shown (st) (sub) (ans) := (walkResume P (.relic (r st)) (settingsOf P [some (.skipHandler (ask ans))]) (files sub) disk 0).nodes.map fun n => n.path
    (∀ st sub ans, sub ≠ .undefined → ∃ o o₀ a, resumePlatform P (r st) (settingsOf P [some (.skipHandler (ask ans))]) (files sub (r st).from) = .ok (o, a) ∧
      resumePlatform P (r st) [] (files sub (r st).from) = .ok (o₀, a) ∧ (r st).handler = some h ∧ o.Bare ∧ o₀.Bare ∧ o₀.Usual ∧
      o₀.hooks = o.hooks ∧ o₀.behaviours = o.behaviours ∧ (∀ k k' p e, (o.defects.fault k p e).2 = (o₀.defects.fault k' p e).2) ∧
      (∀ k n re, (o.defects.skip k n re).2 = (ans n.path, none)) ∧ a.sub = sub ∧ Within disk o [] Demo.fs ∧
      (∀ r, o.hooks.queryStatus.invoke r = r) ∧ a.tree = [] ++ [Demo.fs.name] ∧ disk a.tree = .ok Demo.fs ∧ Resumable [] Demo.fs.name a.currentPath) ∧
    Handler.Nil h ∧ Demo.fs.Distinct ∧
    shown .spawn .universal (at' ["r", "a", "b"] .dir) = [["r", "a"], ["r", "a", "b"], ["r", "a", "x"], ["r", "c"], ["r", "c", "w"], ["r", "f"], ["r", "g"]] ∧
    shown .spawn .files (at' ["r", "c"] .all) = [["r", "a", "b", "y"], ["r", "a", "b", "z"], ["r", "a", "x"], ["r", "f"], ["r", "g"]] ∧
    shown .spawn .directories (at' ["r", "a"] .dir) = [["r", "a"], ["r", "a", "b"], ["r", "c"], ["r", "f"], ["r", "g"]] ∧
    shown .fastward .universal (at' ["r", "c"] .dir) = [["r", "a"], ["r", "a", "b"], ["r", "a", "b", "y"], ["r", "a", "b", "z"], ["r", "a", "x"], ["r", "c"], ["r", "f"], ["r", "g"]] ∧
    shown .fastward .universal (at' ["r"] .dir) = [] ∧
    shown .spawn .universal (at' ["r"] .dir) = shown .spawn .universal (at' [] .dir) := by
  intro P ask at' h r files disk shown
  refine ⟨fun st sub ans hs => ?_, fun _ _ => rfl, Demo.distinct, ?_⟩
  · obtain ⟨doc, h1, h2⟩ := roundTrip P (defaultOptions P) (savedAt ["r"] ["r", "a"] sub)
    have hf : files sub (r st).from = .ok doc := by
      simp only [P] at h1
      simp only [files, Demo.saved, savedFile, h1]
    refine ⟨{ fromJSON P (toJSON (defaultOptions P)) with defects := { (fromJSON P (toJSON (defaultOptions P))).defects with
      skip := fun k n _ => (k, ans n.path, none) } }, fromJSON P (toJSON (defaultOptions P)), (savedAt ["r"] ["r", "a"] sub).active, ?_, ?_, rfl,
      ⟨rfl, rfl, rfl, rfl, rfl, rfl, rfl⟩, ⟨rfl, rfl, rfl, rfl, rfl, rfl, rfl⟩, ⟨fun _ => rfl, fun l => (insertSort_sorts _ l).1, fun _ _ _ => rfl⟩,
      rfl, rfl, fun _ _ _ _ => rfl, fun _ _ _ => rfl, rfl, ⟨fun p g => diskOf_at p g, fun _ => rfl⟩, fun _ => rfl, rfl, rfl, ?_⟩
    · rw [hf]
      simp only [resumePlatform, h2, bindOptions]
      rfl
    · rw [hf]
      simp only [resumePlatform, h2, bindOptions]
      rfl
    · refine ⟨⟨⟨["a"], rfl⟩, ?_⟩, ?_⟩
      · show ["r"] ≠ ["r", "a"]
        decide
      · show (["r", "a"] : Path).getLast? ≠ some "r"
        decide
  · decide +kernel

end Traverse
