import Verif.Props.FilterSessions
import Verif.Props.Fastward
import Verif.Props.Api3
/-
C19 with filters and hibernation: what a resume by fastward shows then.
-/
namespace Traverse

section
variable (P : Platform κ) (u : Using κ) (r : Relic κ) (settings settings₀ : List (Option (Setting κ))) (files : String → Except Err Json)
  (disk : Disk) (o o₀ : Options κ) (h h₀ : κ → Parcel → κ × Reply) (a : Active) (pre : Path) (fs : FS) (keep : Option (Node → Bool)) (hib : HiberOpts)

/-- What is built for a resume by fastward with a filter and conditions of hibernation. -/
theorem forwarded_resumed {P : Platform κ} {r settings files o h a keep hib} (hst : r.strategy = .fastward)
    (hs : Screened P { r with strategy := .spawn } settings files o h a keep hib) :
    Resumed P r settings files { screenedSetup o a.sub keep hib with resume := some .fastward } o.afterwards h a := by
  obtain ⟨F, hF, hFs, hk⟩ := hs.filter
  obtain ⟨W, hW, hWt, hWs⟩ := conditions_make hs.wake
  obtain ⟨L, hL, hLt, hLs⟩ := conditions_make hs.sleep
  refine ⟨hs.handler, o, hs.loaded, ?_⟩
  have e1 : o.afterwards.filter = o.filter := rfl
  have e2 : o.afterwards.hibernate = o.hibernate := rfl
  have e3 : o.afterwards.sampling = o.sampling := rfl
  have hsa : o.sampling.active = false := by simp [SamplingOptions.active, hs.sampling]
  have hr : registerFilter P.engine o.afterwards = .ok (⟨keep.map .node, none, fun _ => false⟩, o.afterwards) := by
    rw [← total_dies hFs]
    rcases hF with ⟨h1, h2, rfl⟩ | ⟨g, h1, h2, rfl⟩ | ⟨h1, d, F, h2, h3, h4, rfl⟩ <;> subst hk
    · simp [registerFilter, createPrimary, createChild, e1, h1, h2, hs.child, hs.sample, FilterOptions.nodeActive]
    · simp [registerFilter, createPrimary, createChild, e1, h1, h2, hs.child]
    · simp [registerFilter, createPrimary, createChild, e1, h1, h2, h3, h4, hs.child]
  have hh : initHibernation P.engine o.afterwards = .ok { hib with wakeDies := fun _ => false, sleepDies := fun _ => false } := by
    simp only [initHibernation, e1, e2, hW, hL]
    rw [← hs.inclusiveWake, ← hs.inclusiveSleep, hWt, hLt, total_dies hWs, total_dies hLs]
  simp only [buildRest, hs.sub, if_false, hr, hh, initSampling, e3, hsa, hst]
  simp only [Bool.false_eq_true, if_false, e3, hsa]
  rfl

theorem ofKind_split (d : Bool) (p : Node → Bool) (l : List Node) : ofKind d (l.takeWhile p) + ofKind d (l.dropWhile p) = ofKind d l := by
  have h := congrArg (ofKind d) (List.takeWhile_append_dropWhile (p := p) (l := l))
  rw [← h]
  simp only [ofKind, List.filter_append, List.length_append]

theorem forwarded_core (hst : r.strategy = .fastward) (hs : Screened P { r with strategy := .spawn } settings files o h a keep hib)
    (hp : Primed P { u with handler := some h₀ } settings₀ disk o₀ h₀ pre fs) (hsub : u.sub = a.sub) (htree : a.tree = u.tree)
    (hstatus : ∀ r, o.hooks.queryStatus.invoke r = r)
    (hu : o.Usual) (hhooks : o₀.hooks = o.hooks) (hbeh : o₀.behaviours = o.behaviours) (hskip : o₀.defects.skip = o.defects.skip)
    (hdistinct : fs.Distinct) (hpath : Resumable pre fs.name a.currentPath) (hnil : Handler.Nil h) (hnil₀ : Handler.Nil h₀) (x x' : κ) :
    let rep := walkResume P (.relic r) settings files disk x
    let all := (walkPrime P (.using { u with handler := some h₀ }) settings₀ disk x').nodes
    rep.nodes = ((window hib all).filter (keep.getD fun _ => true)).dropWhile (fun n => n.path != a.currentPath) ∧
    (a.sub ≠ .files ∨ hib.sleepAt = none → rep.verdict = .done none ∧ rep.complete = true) ∧
    (a.sub ≠ .files ∨ hib.sleepAt = none → keep.isSome → ∀ d, ofKind d (((window hib all).filter (keep.getD fun _ => true)).takeWhile (fun n => n.path != a.currentPath)) +
      ofKind d rep.nodes + rep.metrics.count (filteredMetric d) = ofKind d (window hib all)) := by
  intro rep all
  have hu₀ : o₀.Usual := ⟨by rw [hhooks]; exact hu.read, by rw [hhooks]; exact hu.sort, by rw [hskip]; exact hu.skip⟩
  have hnav : o₀.afterwards.nav u.sub = o.afterwards.nav u.sub := by
    simp only [Options.nav, Nav.mk.injEq, true_and]
    refine ⟨?_, ?_, ?_, ?_⟩
    · show o₀.behaviours.sortFilesFirst = _; rw [hbeh]; rfl
    · show o₀.behaviours.cascade.afterwards.depth = _; rw [hbeh]; rfl
    · show (fun l e => o₀.hooks.readDirectory.invoke (l, e)) = _; rw [hhooks]; rfl
    · show o₀.hooks.sort.invoke = _; rw [hhooks]; rfl
  obtain ⟨y', tree', -, -, h3', -⟩ := primed_walk hp x'
  have hr := forwarded_resumed hst hs
  obtain ⟨f1, f2, f3, -⟩ := resumed_facts (disk := disk) hr x
  generalize hF : ({ screenedSetup o a.sub keep hib with resume := some .fastward } : Setup) = F at *
  have hres : F.resume = some .fastward := by rw [← hF]
  have hdozing := C19_as_if_dozing F hres (o.afterwards.client h) x (fun _ => none) pre fs a.currentPath hpath
  obtain ⟨d1, -, -, d4, d5, -⟩ := hdozing
  -- the run of the resume
  have hpt : pre ++ [fs.name] = a.tree := by rw [htree]; exact hp.tree.symm
  have hdrop : a.tree.dropLast = pre := by rw [← hpt, List.dropLast_concat]
  have hd : disk a.tree = .ok fs := by rw [htree]; exact hp.disk
  have hstat : statOf F.nav o.afterwards disk a.tree = .found (prep F.nav fs) := by
    have : o.afterwards.hooks.queryStatus.invoke (disk a.tree) = .ok fs := by rw [← hd]; exact hstatus _
    simp only [statOf, this]
  have hstart : startWorld F (o.afterwards.client h) .fastward a x = F.world x (fun _ => none) := by
    unfold startWorld World.publish
    rw [if_pos (by simp [Setup.world, hres])]
    simp
  have hrun : resumeRun F o.afterwards (o.afterwards.client h) disk r.strategy a (startWorld F (o.afterwards.client h) r.strategy a x) =
      ((F.session (o.afterwards.client h) x (fun _ => none) a.currentPath pre fs).1, true,
        (F.session (o.afterwards.client h) x (fun _ => none) a.currentPath pre fs).2) := by
    rw [hst, hstart]
    simp only [resumeRun, runTop, hstat, top, hdrop, Setup.session, walk, hpt]
    rfl
  rw [hrun] at f1 f2 f3
  -- the first session with the dozing client
  generalize hSS : F.first = S at *
  have hS : S = { windowedSetup o a.sub keep hib with resume := none } := by rw [← hSS, ← hF]; rfl
  have hord : S.Ordinary := by rw [hS]; exact Or.inl rfl
  have hsane : S.Sane := by rw [hS]; exact ⟨⟨fun _ => rfl, fun _ _ => ⟨rfl, rfl⟩⟩, fun hc => by cases hc⟩
  have hSn : S.nav = o.afterwards.nav u.sub := by rw [hS, hsub]; rfl
  have hSh : S.hiber.sleepAt = hib.sleepAt := by rw [hS]; rfl
  have hSw : ∀ l, window S.hiber l = window hib l := by rw [hS]; intro l; rfl
  have hSf : S.filter.primary = keep.map .node := by rw [hS]; rfl
  have hacc : S.accepts = keep.getD fun _ => true := by
    funext n; cases keep <;> simp [Setup.accepts, hSf]
  have hC : ((o.afterwards.client h).dozing a.currentPath).Accepts := ⟨dozing_nil hnil _, fun k n re => hu.skip k.own n re⟩
  have hsort : SortPermutes S.nav := by rw [hSn]; exact usual_sort hu _
  have hread : S.nav.read = defaultRead := by rw [hSn]; exact usual_read hu _
  have hall : all = invoked (walk S.nav (bareEnv (primedSetup o₀ u.sub) (o₀.client h₀) tree')
      ((primedSetup o₀ u.sub).world y' (fun _ => none)) pre fs).2.log := by
    rw [show all = _ from h3', hSn, ← hnav]
  have hwin : window S.hiber (invoked (S.session ((o.afterwards.client h).dozing a.currentPath) { own := x } (fun _ => none) [] pre fs).2.log) =
      window S.hiber all := by
    rw [hall]
    by_cases hf : u.sub = .files
    · exact (window_tree_files S hord hsane _ hC _ (fun _ => none) [] pre fs _ _ (bare_nil _ _ hnil₀) (usual_skip hu₀ _ _)
        (by rw [hSn]; exact hf) hsort hread hdistinct).1
    · exact (window_tree S hord hsane _ hC _ (fun _ => none) [] pre fs _ _ (bare_nil _ _ hnil₀) (usual_skip hu₀ _ _)
        (by rw [hSn]; exact hf) hsort (defaultRead_selects _ hread) hdistinct).1
  have hcalled := (C25_window S hord hsane ((o.afterwards.client h).dozing a.currentPath) { own := x } (fun _ => none) [] pre fs).1
  rw [hwin, hacc, hSw] at hcalled
  have hverdict : a.sub ≠ .files ∨ hib.sleepAt = none → rep.verdict = .done none := by
    intro hc
    have hfin := (accepted_final hord hsane ((o.afterwards.client h).dozing a.currentPath) hC { own := x } (fun _ => none) [] pre fs hsort hread
      hdistinct).2 (by rw [hSn, hSh]; show u.sub ≠ _ ∨ _; rw [hsub]; exact hc)
    rw [show rep.verdict = _ from f1, d1, hfin]; rfl
  have hnodes : rep.nodes = ((window hib all).filter (keep.getD fun _ => true)).dropWhile (fun n => n.path != a.currentPath) := by
    rw [← hcalled]
    simp only [Report.nodes, World.called]
    rw [show rep.hits = _ from f2]
    have e1 : ∀ l : List Hit, l.map (fun h => h.parcel.node) = (l.map Hit.gist).map (fun g => g.1.node) := by
      intro l; rw [List.map_map]; rfl
    rw [e1, e1, d4, map_dropWhile_key (fun g : Parcel × Reply => g.1.node) (fun n => !decide (n.path = a.currentPath))]
    congr 1
    funext n
    by_cases hn : n.path = a.currentPath <;> simp [hn]
  refine ⟨hnodes, ?_, ?_⟩
  · intro hc
    have hv := hverdict hc
    exact ⟨hv, (f3 (by rw [show (walkResume P (.relic r) settings files disk x).verdict = _ from hv]; simp)).2⟩
  · intro hc hk d
    obtain ⟨f, rfl⟩ := Option.isSome_iff_exists.1 hk
    have hv := hverdict hc
    have hm : rep.metrics = _ := (f3 (by rw [show (walkResume P (.relic r) settings files disk x).verdict = _ from hv]; simp)).1
    have hcons := (C22_conservation S hord hsane f hSf ((o.afterwards.client h).dozing a.currentPath) { own := x } (fun _ => none) [] pre fs).1 d
    rw [C22_reach S hord hsane f hSf, hwin, hSw, hcalled] at hcons
    have e0 : Metrics.count (fun _ => none) (filteredMetric d) = 0 := rfl
    rw [e0, Nat.zero_add] at hcons
    have e1 : ∀ (m : Metrics) i j, (m.less i j).count (filteredMetric d) = m.count (filteredMetric d) := by
      intro m i j; cases d <;> rfl
    have hm' : rep.metrics.count (filteredMetric d) =
        (S.session ((o.afterwards.client h).dozing a.currentPath) { own := x } (fun _ => none) [] pre fs).2.ext.metrics.count (filteredMetric d) := by
      rw [hm, d5, e1]
    rw [hm', ← hcons, hnodes, ofKind_split]

/-- **C19** (with a node filter and conditions of hibernation, each perhaps absent) `all` is what a session without either shows of the tree. A
resume by fastward shows, of the nodes of `all` that lie in the window of hibernation and that the filter accepts, those from the saved path on;
none, if the saved path is not among them. It returns nil and says it is complete. (The window is that of the whole tree: it may have been over
before the saved path. `Screened` is said of the same relic with the other strategy: everything but the strategy is as for a resume by spawning.) -/
theorem C19_screened (hst : r.strategy = .fastward) (hs : Screened P { r with strategy := .spawn } settings files o h a keep hib)
    (hp : Primed P { u with handler := some h₀ } settings₀ disk o₀ h₀ pre fs) (hsub : u.sub = a.sub) (htree : a.tree = u.tree)
    (hstatus : ∀ r, o.hooks.queryStatus.invoke r = r)
    (hu : o.Usual) (hhooks : o₀.hooks = o.hooks) (hbeh : o₀.behaviours = o.behaviours) (hskip : o₀.defects.skip = o.defects.skip)
    (hdistinct : fs.Distinct) (hpath : Resumable pre fs.name a.currentPath) (hnil : Handler.Nil h) (hnil₀ : Handler.Nil h₀) (x x' : κ) :
    let rep := walkResume P (.relic r) settings files disk x
    let all := (walkPrime P (.using { u with handler := some h₀ }) settings₀ disk x').nodes
    rep.nodes = ((window hib all).filter (keep.getD fun _ => true)).dropWhile (fun n => n.path != a.currentPath) ∧
    (a.sub ≠ .files ∨ hib.sleepAt = none → rep.verdict = .done none ∧ rep.complete = true) := by
  intro rep all
  obtain ⟨h1, h2, -⟩ := forwarded_core P u r settings settings₀ files disk o o₀ h h₀ a pre fs keep hib hst hs hp hsub htree hstatus hu hhooks hbeh hskip
    hdistinct hpath hnil hnil₀ x x'
  exact ⟨h1, h2⟩

/-- **C22** (resumed by fastward) The filter is asked about every node of the window, also about those before the saved path, and those it rejects
there are counted as filtered out once more. What is missing from the account are the nodes it accepts before the saved path: they are neither
handed to the handler nor counted. -/
theorem C22_fastward_partial (f : Node → Bool) (hst : r.strategy = .fastward) (hs : Screened P { r with strategy := .spawn } settings files o h a (some f) hib)
    (hp : Primed P { u with handler := some h₀ } settings₀ disk o₀ h₀ pre fs) (hsub : u.sub = a.sub) (htree : a.tree = u.tree)
    (hstatus : ∀ r, o.hooks.queryStatus.invoke r = r)
    (hu : o.Usual) (hhooks : o₀.hooks = o.hooks) (hbeh : o₀.behaviours = o.behaviours) (hskip : o₀.defects.skip = o.defects.skip)
    (hdistinct : fs.Distinct) (hpath : Resumable pre fs.name a.currentPath) (hnil : Handler.Nil h) (hnil₀ : Handler.Nil h₀) (x x' : κ)
    (hsleep : a.sub ≠ .files ∨ hib.sleepAt = none) (d : Bool) :
    let rep := walkResume P (.relic r) settings files disk x
    let all := (walkPrime P (.using { u with handler := some h₀ }) settings₀ disk x').nodes
    ofKind d (((window hib all).filter f).takeWhile (fun n => n.path != a.currentPath)) + ofKind d rep.nodes + rep.metrics.count (filteredMetric d) =
      ofKind d (window hib all) := by
  intro rep all
  exact (forwarded_core P u r settings settings₀ files disk o o₀ h h₀ a pre fs (some f) hib hst hs hp hsub htree hstatus hu hhooks hbeh hskip
    hdistinct hpath hnil hnil₀ x x').2.2 hsleep rfl d

/-- **C22, what is false of resumes by fastward**: saved in /r/c, resumed with a filter against what is called "x", the handler is called for the
four nodes from /r/c on. /r/a/x, which comes before, counts as filtered out; the five other nodes before /r/c reached the filter as well and are
in no account. -/
theorem C22_fastward_unaccounted :
    let P := sortPlatform
    let d : FilterCore := { type := .regex, pattern := "x", negate := true }
    let settings := settingsOf P [some (.filter { node := some (.plain d) } none)]
    let rep := walkResume P (.relic (Demo.relic .fastward Demo.quiet)) settings (Demo.saved ["r", "c"] .universal) (diskOf [] Demo.fs) 0
    rep.nodes.map (fun n => n.path) = [["r", "c"], ["r", "c", "w"], ["r", "f"], ["r", "g"]] ∧
    rep.metrics.count .filesFilteredOut = 1 ∧ rep.metrics.count .dirsFilteredOut = 0 ∧ rep.verdict = .done none := by
  intro P d settings rep
  exact ⟨by decide +kernel, by decide +kernel, by decide +kernel, by decide +kernel⟩

/-- **C25** (resumed by fastward) A resume with conditions of hibernation delivers the window of the whole tree from the saved path on. Missing: if the
saved path is not in the window, nothing is delivered, even if the window lies behind it (`C25_fastward_lost`). -/
theorem C25_fastward_partial (hst : r.strategy = .fastward) (hs : Screened P { r with strategy := .spawn } settings files o h a none hib)
    (hp : Primed P { u with handler := some h₀ } settings₀ disk o₀ h₀ pre fs) (hsub : u.sub = a.sub) (htree : a.tree = u.tree)
    (hstatus : ∀ r, o.hooks.queryStatus.invoke r = r)
    (hu : o.Usual) (hhooks : o₀.hooks = o.hooks) (hbeh : o₀.behaviours = o.behaviours) (hskip : o₀.defects.skip = o.defects.skip)
    (hdistinct : fs.Distinct) (hpath : Resumable pre fs.name a.currentPath) (hnil : Handler.Nil h) (hnil₀ : Handler.Nil h₀) (x x' : κ) :
    let rep := walkResume P (.relic r) settings files disk x
    let all := (walkPrime P (.using { u with handler := some h₀ }) settings₀ disk x').nodes
    rep.nodes = (window hib all).dropWhile (fun n => n.path != a.currentPath) := by
  intro rep all
  have h1 := (C19_screened P u r settings settings₀ files disk o o₀ h h₀ a pre fs none hib hst hs hp hsub htree hstatus hu hhooks hbeh hskip
    hdistinct hpath hnil hnil₀ x x').1
  rw [show rep.nodes = _ from h1]
  congr 1
  show (window hib all).filter (fun _ => true) = _
  simp

/-- **C25, what is false of resumes by fastward** (`C63`): awake from "y" on, a session delivers /r/a/b/y and what follows. Interrupted at /r/a/b/z it
is saved in /r/a/b, which comes before the wake node. The resume by fastward is asleep there, is never woken, delivers nothing, returns nil and says
it is complete. The resume by spawning delivers the same as the session. -/
theorem C25_fastward_lost :
    let P := sortPlatform
    let wake : FilterDef := .plain { type := .regex, pattern := "y" }
    let settings := settingsOf P [some (.filterWake (some wake))]
    let whole := walkPrime P (.using { toyUsing .universal with handler := some (Demo.byPath Demo.quiet) }) settings (diskOf [] Demo.fs) 0
    let again (s) := walkResume P (.relic (Demo.relic s Demo.quiet)) settings (Demo.saved ["r", "a", "b"] .universal) (diskOf [] Demo.fs) 0
    let rest := [["r", "a", "b", "y"], ["r", "a", "b", "z"], ["r", "a", "x"], ["r", "c"], ["r", "c", "w"], ["r", "f"], ["r", "g"]]
    whole.nodes.map (fun n => n.path) = rest ∧ (again .spawn).nodes.map (fun n => n.path) = rest ∧
    (again .fastward).nodes = [] ∧ (again .fastward).verdict = .done none ∧ (again .fastward).complete = true := by
  intro P wake settings whole again rest
  exact ⟨by decide +kernel, by decide +kernel, by decide +kernel, by decide +kernel, by decide +kernel⟩

theorem dropWhile_all {α} {p : α → Bool} {l : List α} (h : ∀ a ∈ l, p a = true) : l.dropWhile p = [] := by
  induction l with
  | nil => rfl
  | cons a l ih =>
    rw [List.dropWhile_cons, if_pos (h a (by simp))]
    exact ih fun b hb => h b (by simp [hb])

/-- **C19, what is false of filtered sessions**: whenever the filter rejects the saved directory, the resume by fastward shows nothing at all,
returns nil and says it is complete; whatever the filter accepts further on. -/
theorem C19_filter_never_wakes (f : Node → Bool) (hst : r.strategy = .fastward)
    (hs : Screened P { r with strategy := .spawn } settings files o h a (some f) hib)
    (hp : Primed P { u with handler := some h₀ } settings₀ disk o₀ h₀ pre fs) (hsub : u.sub = a.sub) (htree : a.tree = u.tree)
    (hstatus : ∀ r, o.hooks.queryStatus.invoke r = r)
    (hu : o.Usual) (hhooks : o₀.hooks = o.hooks) (hbeh : o₀.behaviours = o.behaviours) (hskip : o₀.defects.skip = o.defects.skip)
    (hdistinct : fs.Distinct) (hpath : Resumable pre fs.name a.currentPath) (hnil : Handler.Nil h) (hnil₀ : Handler.Nil h₀) (x x' : κ)
    (hsleep : a.sub ≠ .files ∨ hib.sleepAt = none) :
    let rep := walkResume P (.relic r) settings files disk x
    let all := (walkPrime P (.using { u with handler := some h₀ }) settings₀ disk x').nodes
    (∀ n ∈ all, n.path = a.currentPath → f n = false) →
    rep.nodes = [] ∧ rep.verdict = .done none ∧ rep.complete = true := by
  intro rep all hrej
  obtain ⟨h1, h2⟩ := C19_screened P u r settings settings₀ files disk o o₀ h h₀ a pre fs (some f) hib hst hs hp hsub htree hstatus hu hhooks hbeh hskip
    hdistinct hpath hnil hnil₀ x x'
  refine ⟨?_, h2 hsleep⟩
  rw [show rep.nodes = _ from h1]
  refine dropWhile_all fun n hn => ?_
  rw [List.mem_filter] at hn
  have hin : n ∈ all := window_sub hib _ n hn.1
  by_cases hp : n.path = a.currentPath
  · have := hrej n hin hp
    simp [this] at hn
  · simpa using hp

theorem kept_dropWhile {α} {p f : α → Bool} {l : List α} (h : ∀ a ∈ l, p a = false → f a = true) :
    (l.filter f).dropWhile p = (l.dropWhile p).filter f := by
  induction l with
  | nil => rfl
  | cons a l ih =>
    have ih' := ih fun b hb => h b (by simp [hb])
    cases hp : p a with
    | true =>
      rw [List.dropWhile_cons, if_pos hp, ← ih']
      cases hf : f a with
      | true => rw [List.filter_cons_of_pos hf, List.dropWhile_cons, if_pos hp]
      | false => rw [List.filter_cons_of_neg (by simp [hf])]
    | false =>
      have hf := h a (by simp) hp
      rw [List.filter_cons_of_pos hf, List.dropWhile_cons, List.dropWhile_cons, if_neg (by simp [hp]), if_neg (by simp [hp]), List.filter_cons_of_pos hf]

/-- **C21** (resumed by fastward) If the filter accepts the saved directory, the resume with the filter calls the handler exactly for the matching
nodes of those the resume without it shows, in the same order and with the same data. Missing: filters that reject the saved directory, of which
it is false (`C19_filter_never_wakes`). -/
theorem C21_fastward_partial (r₀ : Relic κ) (settings₁ : List (Option (Setting κ))) (files₁ : String → Except Err Json) (o₁ : Options κ)
    (h₁ : κ → Parcel → κ × Reply) (hib₁ : HiberOpts) (f : Node → Bool) (hst : r.strategy = .fastward) (hst₁ : r₀.strategy = .fastward)
    (hs : Screened P { r with strategy := .spawn } settings files o h a (some f) hib) (hno : hib.wakeAt = none ∧ hib.sleepAt = none)
    (hs₁ : Screened P { r₀ with strategy := .spawn } settings₁ files₁ o₁ h₁ a none hib₁) (hno₁ : hib₁.wakeAt = none ∧ hib₁.sleepAt = none)
    (hp : Primed P { u with handler := some h₀ } settings₀ disk o₀ h₀ pre fs) (hsub : u.sub = a.sub) (htree : a.tree = u.tree)
    (hstatus : ∀ r, o.hooks.queryStatus.invoke r = r)
    (hu : o.Usual) (hhooks : o₀.hooks = o.hooks) (hbeh : o₀.behaviours = o.behaviours) (hskip : o₀.defects.skip = o.defects.skip)
    (hhooks₁ : o₁.hooks = o.hooks) (hbeh₁ : o₁.behaviours = o.behaviours) (hskip₁ : o₁.defects.skip = o.defects.skip)
    (hdistinct : fs.Distinct) (hpath : Resumable pre fs.name a.currentPath) (hnil : Handler.Nil h) (hnil₀ : Handler.Nil h₀) (hnil₁ : Handler.Nil h₁)
    (x x' x₁ : κ) :
    let rep := walkResume P (.relic r) settings files disk x
    let bare := walkResume P (.relic r₀) settings₁ files₁ disk x₁
    let all := (walkPrime P (.using { u with handler := some h₀ }) settings₀ disk x').nodes
    (∀ n ∈ all, n.path = a.currentPath → f n = true) →
    rep.nodes = bare.nodes.filter f ∧ rep.verdict = bare.verdict ∧ rep.complete = bare.complete := by
  intro rep bare all hacc
  have hu₁ : o₁.Usual := ⟨by rw [hhooks₁]; exact hu.read, by rw [hhooks₁]; exact hu.sort, by rw [hskip₁]; exact hu.skip⟩
  obtain ⟨h1, h2⟩ := C19_screened P u r settings settings₀ files disk o o₀ h h₀ a pre fs (some f) hib hst hs hp hsub htree hstatus hu hhooks hbeh hskip
    hdistinct hpath hnil hnil₀ x x'
  obtain ⟨k1, k2⟩ := C19_screened P u r₀ settings₁ settings₀ files₁ disk o₁ o₀ h₁ h₀ a pre fs none hib₁ hst₁ hs₁ hp hsub htree
    (by rw [hhooks₁]; exact hstatus) hu₁ (hhooks.trans hhooks₁.symm) (hbeh.trans hbeh₁.symm) (hskip.trans hskip₁.symm) hdistinct hpath hnil₁ hnil₀ x₁ x'
  have hw : ∀ l, window hib l = l := by intro l; simp [window, hno.1, hno.2, upTo]
  have hw₁ : ∀ l, window hib₁ l = l := by intro l; simp [window, hno₁.1, hno₁.2, upTo]
  refine ⟨?_, ?_, ?_⟩
  · rw [show rep.nodes = _ from h1, show bare.nodes = _ from k1, hw, hw₁]
    have e : (all.filter fun _ => true) = all := by simp
    show (all.filter f).dropWhile _ = ((all.filter fun _ => true).dropWhile _).filter f
    rw [e]
    refine kept_dropWhile fun n hn hp => hacc n hn ?_
    simpa using hp
  · rw [show rep.verdict = _ from (h2 (.inr hno.2)).1, show bare.verdict = _ from (k2 (.inr hno₁.2)).1]
  · rw [show rep.complete = _ from (h2 (.inr hno.2)).2, show bare.complete = _ from (k2 (.inr hno₁.2)).2]

end

/-- Not vacuous: the demo session saved in /r/a, resumed by fastward with a filter against what is called "y", which is woken, and with one for
what is called "b", which is not. -/
example :
    let P := sortPlatform
    let h := Demo.byPath Demo.quiet
    let r := Demo.relic .fastward Demo.quiet
    let a := (savedAt ["r"] ["r", "a"] .universal).active
    let files := Demo.saved ["r", "a"] .universal
    let d : FilterCore := { type := .regex, pattern := "y", negate := true }
    let e : FilterCore := { type := .regex, pattern := "b", ifNotApplicable := .no }
    let settings (c : FilterCore) := settingsOf P [some (.filter { node := some (.plain c) } none)]
    (∀ c, c = d ∨ c = e → ∃ o f hib, Screened P { r with strategy := .spawn } (settings c) files o h a (some f) hib ∧
      hib.sleepAt = none ∧ (∀ r, o.hooks.queryStatus.invoke r = r) ∧ o.Usual ∧
      (defaultOptions P).hooks = o.hooks ∧ (defaultOptions P).behaviours = o.behaviours ∧ (defaultOptions P).defects.skip = o.defects.skip ∧
      (c = e → ∀ n : Node, n.path = ["r", "a"] → f n = false) ∧ (c = d → ∀ n : Node, n.path = ["r", "a"] → f n = true)) ∧
    (∃ o₁ hib₁, Screened P { r with strategy := .spawn } [] files o₁ h a none hib₁ ∧ hib₁.wakeAt = none ∧ hib₁.sleepAt = none ∧
      (defaultOptions P).hooks = o₁.hooks ∧ (defaultOptions P).behaviours = o₁.behaviours ∧ (defaultOptions P).defects.skip = o₁.defects.skip) ∧
    Primed P { toyUsing .universal with handler := some h } [] (diskOf [] Demo.fs) (defaultOptions P) h [] Demo.fs ∧
    a.tree = (toyUsing .universal).tree ∧ Resumable [] Demo.fs.name a.currentPath ∧ Handler.Nil h ∧
    (walkResume P (.relic r) (settings d) files (diskOf [] Demo.fs) 0).nodes.map (fun n => n.path) =
      [["r", "a"], ["r", "a", "b"], ["r", "a", "b", "z"], ["r", "a", "x"], ["r", "c"], ["r", "c", "w"], ["r", "f"], ["r", "g"]] := by
  intro P h r a files d e settings
  obtain ⟨doc, h1, h2⟩ := roundTrip sortPlatform (defaultOptions sortPlatform) (savedAt ["r"] ["r", "a"] .universal)
  have hf : files (Demo.relic .spawn Demo.quiet).from = .ok doc := by simp only [files, Demo.saved, savedFile, h1]
  have hplat (ws) : resumePlatform sortPlatform (Demo.relic .spawn Demo.quiet) (settingsOf sortPlatform ws) (.ok doc) =
      .ok ((bindOptions (fromJSON sortPlatform (toJSON (defaultOptions sortPlatform))) (settingsOf sortPlatform ws)).1, a) := by
    simp only [resumePlatform, h2, bindOptions, applyAll_settings]
    rfl
  refine ⟨?_, ?_, ?_, rfl, ⟨⟨⟨["a"], rfl⟩, by decide⟩, by decide⟩, fun _ _ => rfl, by decide +kernel⟩
  · intro c hc
    have key : ∃ o F, (bindOptions (fromJSON sortPlatform (toJSON (defaultOptions sortPlatform))) (settings c)).1 = o ∧
        o.filter.custom = none ∧ o.filter.node = some (.plain c) ∧ o.filter.nodeActive = true ∧
        newFilter P.engine (.plain c) o.filter = .ok (some F) ∧ o.hibernate.wakeAt = none ∧ o.hibernate.sleepAt = none ∧
        o.filter.child = none ∧ o.filter.sample = none ∧ o.sampling.type = .undefined ∧ c.type ≠ .poly ∧
        (∀ r, o.hooks.queryStatus.invoke r = r) ∧ o.Usual ∧ (defaultOptions P).hooks = o.hooks ∧ (defaultOptions P).behaviours = o.behaviours ∧
        (defaultOptions P).defects.skip = o.defects.skip := by
      rcases hc with rfl | rfl <;> exact ⟨_, _, rfl, rfl, rfl, rfl, rfl, rfl, rfl, rfl, rfl, rfl, by decide, fun _ => rfl,
        ⟨fun _ => rfl, fun l => (insertSort_sorts _ l).1, fun _ _ _ => rfl⟩, rfl, rfl, rfl⟩
    obtain ⟨o, F, e1, e2, e3, e4, e5, e6, e7, e10, e11, e12, e13, k1, k2, k3, k4, k5⟩ := key
    have hcu : ∀ c, o.filter.custom = some c → ∀ v, c.isMatch v ≠ none := by rw [e2]; intro _ h; cases h
    refine ⟨o, F.predicate P.engine, ⟨none, none, o.hibernate.inclusiveWake, o.hibernate.inclusiveSleep, fun _ => false, fun _ => false⟩,
      ⟨rfl, rfl, by show resumePlatform _ (Demo.relic .spawn Demo.quiet) _ (files (Demo.relic .spawn Demo.quiet).from) = _; rw [hf, ← e1]; exact hplat _, e10, e11, e12,
        ⟨some F, .inr (.inr ⟨e2, _, F, e3, e4, e5, rfl⟩), (fun _ h => by cases h; exact newFilter_total e5 hcu e13), rfl⟩,
        .inl ⟨e6, rfl⟩, .inl ⟨e7, rfl⟩, rfl, rfl, by decide⟩,
      rfl, k1, k2, k3, k4, k5, ?_, ?_⟩
    · rintro rfl n hn
      obtain ⟨g, hg1, hg2⟩ := C23_scope_and_negation P.engine e o.filter e2 (.inr ⟨rfl, by decide⟩)
      rw [hg1] at e5
      cases e5
      have hname : n.name = "a" := by show (n.path.getLast?.getD "") = _; rw [hn]; rfl
      simp only [Filter.predicate, hg2, Option.getD_some]
      have hv : P.engine.verdict e.type e.pattern n.view.name = false := by
        show P.engine.verdict e.type e.pattern n.name = false
        rw [hname]
        decide +kernel
      rw [hv]
      split <;> split <;> rfl
    · rintro rfl n hn
      obtain ⟨g, hg1, hg2⟩ := C23_scope_and_negation P.engine d o.filter e2 (.inr ⟨rfl, by decide⟩)
      rw [hg1] at e5
      cases e5
      have hname : n.name = "a" := by show (n.path.getLast?.getD "") = _; rw [hn]; rfl
      simp only [Filter.predicate, hg2, Option.getD_some]
      have hv : P.engine.verdict d.type d.pattern n.view.name = false := by
        show P.engine.verdict d.type d.pattern n.name = false
        rw [hname]
        decide +kernel
      rw [hv]
      split <;> split <;> rfl
  · exact ⟨(bindOptions (fromJSON sortPlatform (toJSON (defaultOptions sortPlatform))) []).1, ⟨none, none, true, false, fun _ => false, fun _ => false⟩,
      ⟨rfl, rfl, by show resumePlatform _ (Demo.relic .spawn Demo.quiet) _ (files (Demo.relic .spawn Demo.quiet).from) = _; rw [hf]; exact hplat [],
        rfl, rfl, rfl, ⟨none, .inl ⟨rfl, rfl, rfl⟩, (fun _ h => by cases h), rfl⟩, .inl ⟨rfl, rfl⟩, .inl ⟨rfl, rfl⟩, rfl, rfl, by decide⟩,
      rfl, rfl, rfl, rfl, rfl⟩
  · exact ⟨rfl, rfl, ⟨rfl, rfl, rfl, rfl, rfl, rfl, rfl⟩, by decide, rfl, rfl, diskOf_holds Demo.distinct _ _ (.here [] Demo.fs), fun _ => rfl⟩

/-- Not vacuous, C25: the demo session saved in /r/a/b, resumed by fastward, awake from "a" to "c". -/
example :
    let P := sortPlatform
    let h := Demo.byPath Demo.quiet
    let r := Demo.relic .fastward Demo.quiet
    let a := (savedAt ["r"] ["r", "a", "b"] .universal).active
    let files := Demo.saved ["r", "a", "b"] .universal
    let wake : FilterDef := .plain { type := .regex, pattern := "a" }
    let sleep : FilterDef := .plain { type := .regex, pattern := "c" }
    let settings := settingsOf P [some (.filterWake (some wake)), some (.filterSleep (some sleep))]
    (∃ o hib, Screened P { r with strategy := .spawn } settings files o h a none hib ∧ hib.wakeAt.isSome ∧ hib.sleepAt.isSome ∧
      (∀ r, o.hooks.queryStatus.invoke r = r) ∧ o.Usual ∧
      (defaultOptions P).hooks = o.hooks ∧ (defaultOptions P).behaviours = o.behaviours ∧ (defaultOptions P).defects.skip = o.defects.skip) ∧
    Resumable [] Demo.fs.name a.currentPath ∧
    (walkResume P (.relic r) settings files (diskOf [] Demo.fs) 0).nodes.map (fun n => n.path) =
      [["r", "a", "b"], ["r", "a", "b", "y"], ["r", "a", "b", "z"], ["r", "a", "x"]] := by
  intro P h r a files wake sleep settings
  obtain ⟨doc, h1, h2⟩ := roundTrip sortPlatform (defaultOptions sortPlatform) (savedAt ["r"] ["r", "a", "b"] .universal)
  have hf : files (Demo.relic .spawn Demo.quiet).from = .ok doc := by simp only [files, Demo.saved, savedFile, h1]
  have hplat (ws) : resumePlatform sortPlatform (Demo.relic .spawn Demo.quiet) (settingsOf sortPlatform ws) (.ok doc) =
      .ok ((bindOptions (fromJSON sortPlatform (toJSON (defaultOptions sortPlatform))) (settingsOf sortPlatform ws)).1, a) := by
    simp only [resumePlatform, h2, bindOptions, applyAll_settings]
    rfl
  refine ⟨?_, ⟨⟨⟨["a", "b"], rfl⟩, by decide⟩, by decide⟩, by decide +kernel⟩
  have key : ∃ o G K, (bindOptions (fromJSON sortPlatform (toJSON (defaultOptions sortPlatform))) settings).1 = o ∧ o.filter.custom = none ∧
      o.filter.node = none ∧ o.hibernate.wakeAt = some wake ∧ o.hibernate.sleepAt = some sleep ∧
      newFilter P.engine wake o.filter = .ok (some G) ∧ newFilter P.engine sleep o.filter = .ok (some K) ∧
      o.filter.child = none ∧ o.filter.sample = none ∧ o.sampling.type = .undefined ∧
      (∀ r, o.hooks.queryStatus.invoke r = r) ∧ o.Usual ∧ (defaultOptions P).hooks = o.hooks ∧ (defaultOptions P).behaviours = o.behaviours ∧
      (defaultOptions P).defects.skip = o.defects.skip :=
    ⟨_, _, _, rfl, rfl, rfl, rfl, rfl, rfl, rfl, rfl, rfl, rfl, fun _ => rfl,
      ⟨fun _ => rfl, fun l => (insertSort_sorts _ l).1, fun _ _ _ => rfl⟩, rfl, rfl, rfl⟩
  obtain ⟨o, G, K, e1, e2, e3, e6, e7, e8, e9, e10, e11, e12, k1, k2, k3, k4, k5⟩ := key
  have hcu : ∀ c, o.filter.custom = some c → ∀ v, c.isMatch v ≠ none := by rw [e2]; intro _ h; cases h
  exact ⟨o, ⟨some (G.predicate P.engine), some (K.predicate P.engine), o.hibernate.inclusiveWake, o.hibernate.inclusiveSleep, fun _ => false, fun _ => false⟩,
    ⟨rfl, rfl, by show resumePlatform _ (Demo.relic .spawn Demo.quiet) _ (files (Demo.relic .spawn Demo.quiet).from) = _; rw [hf, ← e1]; exact hplat _, e10, e11, e12,
      ⟨none, .inl ⟨e2, e3, rfl⟩, (fun _ h => by cases h), rfl⟩,
      .inr ⟨wake, G, e6, e8, newFilter_total e8 hcu (by decide), rfl⟩, .inr ⟨sleep, K, e7, e9, newFilter_total e9 hcu (by decide), rfl⟩, rfl, rfl, by decide⟩,
    rfl, rfl, k1, k2, k3, k4, k5⟩

end Traverse
