import Verif.Proofs.SampledResume
import Verif.Props.Api3
import Verif.Props.Resumed
import Verif.Props.Skipping
import Verif.Props.Changed
/-
C30 in resumed sessions: sampling.
-/
namespace Traverse
variable {κ : Type}

theorem resumeRun_sampled (S : Setup) (A B : Options κ) (C : Client κ) (strategy : Strategy) (hS : S.nav.read = defaultRead)
    (q : Quota) (hA : ∀ r, A.hooks.queryStatus.invoke r = r) (hB : ∀ r, B.hooks.queryStatus.invoke r = r)
    (hf : (A.fault : World κ → Path → Err → World κ × Option Err) = B.fault) (disk disk₀ : Disk)
    (hdist : ∀ p fs, disk p = .ok fs → fs.Distinct)
    (hdisk₀ : ∀ p, disk₀ p = match disk p with
      | .ok fs => .ok (fs.sampled (fun _ => true) q)
      | .error e => .error e) (a : Active)
    (hway : strategy = .spawn → a.tree <+: a.currentPath ∧
      ∀ p, a.tree <+: p → Above p a.currentPath → ∃ fs, disk p = .ok fs ∧ fs.isDir = true)
    {w w' : World κ} (hw : Twins (S.sampledBy (sampledRead none (some q))) S w w') :
    let r := resumeRun (S.sampledBy (sampledRead none (some q))) A C disk strategy a w
    let r₀ := resumeRun S B C disk₀ strategy a w'
    r.1 = r₀.1 ∧ r.2.1 = r₀.2.1 ∧ ∃ g st, r.2.2.ext = r₀.2.2.ext.but g st := by
  intro r r₀
  have hnav : ({ (S.sampledBy (sampledRead none (some q))).nav with read := defaultRead } : Nav) = S.nav := by rw [← hS]; rfl
  have hstat : ∀ p, statOf (S.sampledBy (sampledRead none (some q))).nav A disk p = statOf S.nav B disk₀ p := by
    intro p
    simp only [statOf, hA, hB, hdisk₀]
    cases hd : disk p with
    | error e => rfl
    | ok fs =>
      simp only
      rw [prep_sampled _ none (fun _ => true) q rfl rfl fs (hdist p fs hd), hnav]
  have hstat' : statOf (S.sampledBy (sampledRead none (some q))).nav A disk = statOf S.nav B disk₀ := funext hstat
  have hsim := env_twins (S := S.sampledBy (sampledRead none (some q))) (S' := S) rfl C rfl rfl rfl a.tree a.currentPath
  have hfs : ∀ (u v : World κ) p e, Twins (S.sampledBy (sampledRead none (some q))) S u v →
      (B.fault u p e).2 = (B.fault v p e).2 ∧ Twins (S.sampledBy (sampledRead none (some q))) S (B.fault u p e).1 (B.fault v p e).1 := by
    rintro u v p e ⟨⟨g, st, rfl⟩, fw, h1, h2⟩
    exact ⟨rfl, ⟨g, st, rfl⟩, fw, h1, h2⟩
  by_cases hsp : strategy = .spawn
  · subst hsp
    obtain ⟨ht, hway⟩ := hway rfl
    have hlegs : legsOf (S.sampledBy (sampledRead none (some q))).nav disk a.tree a.currentPath.reverse true =
        legsOf S.nav disk₀ a.tree a.currentPath.reverse true := by
      rw [legsOf_sampled _ q rfl disk disk₀ hdist (fun p fs h => by rw [hdisk₀, h]) a.tree a.currentPath.reverse true
        (by rw [List.reverse_reverse]; exact ht) (by rw [List.reverse_reverse]; exact hway), hnav]
    obtain ⟨k1, k2⟩ := goLegs_sim hsim S.nav (fun _ _ _ _ => trivial) B.fault B.fault hfs (statOf S.nav B disk₀)
      (legsOf S.nav disk₀ a.tree a.currentPath.reverse true).1 ⟨a.depth, w, []⟩ ⟨a.depth, w', []⟩ ⟨rfl, rfl, hw⟩
    simp only [r, r₀, resumeRun, crown_legs, hlegs, hstat', hf]
    rw [goLegs_nav (S.sampledBy (sampledRead none (some q))).nav S.nav rfl rfl]
    rcases h1 : goLegs S.nav ((S.sampledBy (sampledRead none (some q))).env C a.tree a.currentPath) B.fault (statOf S.nav B disk₀)
      (legsOf S.nav disk₀ a.tree a.currentPath.reverse true).1 ⟨a.depth, w, []⟩ with ⟨f, s⟩
    rcases h2 : goLegs S.nav (S.env C a.tree a.currentPath) B.fault (statOf S.nav B disk₀)
      (legsOf S.nav disk₀ a.tree a.currentPath.reverse true).1 ⟨a.depth, w', []⟩ with ⟨f', s'⟩
    rw [h1, h2] at k1 k2
    simp only at k1 k2
    subst k1
    obtain ⟨⟨g, st, h3⟩, -⟩ := k2.ext
    rcases f with (_ | e) | _ <;> exact ⟨rfl, rfl, g, st, h3⟩
  · have hr : r = ((runTop (S.sampledBy (sampledRead none (some q))) A C disk a.tree a.currentPath ⟨0, w, []⟩).1, true,
        (runTop (S.sampledBy (sampledRead none (some q))) A C disk a.tree a.currentPath ⟨0, w, []⟩).2) := by
      cases strategy <;> first | exact absurd rfl hsp | rfl
    have hr₀ : r₀ = ((runTop S B C disk₀ a.tree a.currentPath ⟨0, w', []⟩).1, true, (runTop S B C disk₀ a.tree a.currentPath ⟨0, w', []⟩).2) := by
      cases strategy <;> first | exact absurd rfl hsp | rfl
    rw [hr, hr₀]
    simp only [runTop, hstat, hf]
    cases statOf S.nav B disk₀ a.tree with
    | error e =>
      obtain ⟨⟨g, st, rfl⟩, -⟩ := hw
      exact ⟨rfl, trivial, g, st, rfl⟩
    | found t =>
      simp only [top]
      obtain ⟨k1, k2⟩ := hsim.traverse S.nav (fun _ _ _ _ => trivial) t [] a.tree.dropLast ⟨0, w, []⟩ ⟨0, w', []⟩ ⟨rfl, rfl, hw⟩
      rw [traverse_nav (S.sampledBy (sampledRead none (some q))).nav S.nav rfl rfl]
      obtain ⟨⟨g, st, h3⟩, -⟩ := k2.ext
      exact ⟨by rw [k1], trivial, g, st, h3⟩

theorem resume_sampled (A : Options κ) (f : FilterOpts) (hib : HiberOpts) (h : κ → Parcel → κ × Reply) (strategy : Strategy)
    (disk disk₀ : Disk) (a : Active) (q : Quota) (hq : A.sampling.quota = q) (hact : A.sampling.active = true)
    (hread : A.hooks.readDirectory.listeners = none ∧ ∀ r, A.hooks.readDirectory.invoke r = defaultRead r.1 r.2)
    (hstatus : ∀ r, A.hooks.queryStatus.invoke r = r)
    (hdist : ∀ p fs, disk p = .ok fs → fs.Distinct)
    (hdisk₀ : ∀ p, disk₀ p = match disk p with
      | .ok fs => .ok (fs.sampled (fun _ => true) q)
      | .error e => .error e)
    (hway : strategy = .spawn → a.tree <+: a.currentPath ∧
      ∀ p, a.tree <+: p → Above p a.currentPath → ∃ fs, disk p = .ok fs ∧ fs.isDir = true) (x : κ) :
    (Built.ready ⟨A.sampler.nav a.sub, hib, f, A.sampling.active, some strategy⟩ A.sampler).resume strategy h disk a x =
    (Built.ready { nav := Options.nav { A with sampling := {} } a.sub, hiber := hib, filter := f, sampling := false, resume := some strategy }
      { A with sampling := {} }).resume strategy h disk₀ a x := by
  generalize hS : ({ nav := Options.nav { A with sampling := {} } a.sub, hiber := hib, filter := f, sampling := false, resume := some strategy } : Setup) = S
  have hSr : S.nav.read = defaultRead := by
    rw [← hS]; funext l e; exact hread.2 (l, e)
  have hS' : (⟨A.sampler.nav a.sub, hib, f, A.sampling.active, some strategy⟩ : Setup) = S.sampledBy (sampledRead none (some q)) := by
    rw [hact, ← hq, ← hS, ← chained_read A.hooks.readDirectory hread.1 hread.2]
    rfl
  rw [hS']
  simp only [Built.resume]
  have hC : Options.client A.sampler h = A.client h := rfl
  have hC' : Options.client { A with sampling := {} } h = A.client h := rfl
  rw [hC, hC']
  generalize A.client h = C
  have hw : Twins (S.sampledBy (sampledRead none (some q))) S
      (((S.sampledBy (sampledRead none (some q))).world x (if strategy = .spawn then a.metrics else fun _ => none)).publish C (.begin a.tree))
      ((S.world x (if strategy = .spawn then a.metrics else fun _ => none)).publish C (.begin a.tree)) := by
    rw [sampledBy_world S _, publish_but]
    refine ⟨⟨_, _, rfl⟩, true, guard_ok (S.sampledBy (sampledRead none (some q))), ?_⟩
    rw [publish_guard]; exact guard_ok S
  obtain ⟨k1, k2, g, st, k3⟩ := resumeRun_sampled S A.sampler { A with sampling := {} } C strategy hSr q hstatus hstatus rfl disk disk₀ hdist hdisk₀ a hway hw
  rcases h1 : resumeRun (S.sampledBy (sampledRead none (some q))) A.sampler C disk strategy a
      (((S.sampledBy (sampledRead none (some q))).world x (if strategy = .spawn then a.metrics else fun _ => none)).publish C (.begin a.tree)) with ⟨v, c, s⟩
  rcases h2 : resumeRun S { A with sampling := {} } C disk₀ strategy a
      ((S.world x (if strategy = .spawn then a.metrics else fun _ => none)).publish C (.begin a.tree)) with ⟨v', c', s'⟩
  rw [h1, h2] at k1 k2 k3
  simp only at k1 k2 k3
  subst k1 k2
  rcases v with _ | _
  · simp only [k3, publish_but]; rfl
  · simp only [k3]; rfl

/-- **C30** (resumed) Sampling, whatever the strategy, whatever else is configured (filters, hibernation, a depth limit, listeners) and
whatever the handlers answer: the resumed session is in every respect — what it returns, the handler calls with their nodes, the events,
the metrics, whether it says it is complete — the resumed session without sampling on a disk on which every directory holds only its
sample, taken of the whole directory and not of what remains to be visited of it. For spawn, the saved path lies below the tree and what
is above it is still a directory. -/
theorem C30_resumed (P : Platform κ) (r : Relic κ) (settings settings₀ : List (Option (Setting κ))) (files files₀ : String → Except Err Json)
    (disk disk₀ : Disk) (o : Options κ) (a : Active)
    (hplat : resumePlatform P r settings (files r.from) = .ok (o, a))
    (hplat₀ : resumePlatform P r settings₀ (files₀ r.from) = .ok ({ o with sampling := {} }, a))
    (hact : o.sampling.type ≠ .undefined) (hsample : o.filter.sample = none)
    (hread : o.hooks.readDirectory.listeners = none ∧ ∀ r, o.hooks.readDirectory.invoke r = defaultRead r.1 r.2)
    (hstatus : ∀ r, o.hooks.queryStatus.invoke r = r)
    (hdistinct : ∀ p fs, disk p = .ok fs → fs.Distinct)
    (hdisk₀ : ∀ p, disk₀ p = match disk p with
      | .ok fs => .ok (fs.sampled (fun _ => true) ⟨o.sampling.files, o.sampling.dirs, o.sampling.inReverse⟩)
      | .error e => .error e)
    (hway : r.strategy = .spawn → a.tree <+: a.currentPath ∧
      ∀ p, a.tree <+: p → Above p a.currentPath → ∃ fs, disk p = .ok fs ∧ fs.isDir = true) (x : κ) :
    walkResume P (.relic r) settings files disk x = walkResume P (.relic r) settings₀ files₀ disk₀ x := by
  generalize hh : r.handler.getD (fun k _ => (k, Reply.panic)) = h
  simp only [walkResume, hplat, hplat₀, hh]
  have hO : (({ o with sampling := {} } : Options κ)).afterwards = { o.afterwards with sampling := {} } := rfl
  rw [hO]
  generalize hA : o.afterwards = A at *
  have a1 : A.filter.sample = none := by rw [← hA]; exact hsample
  have a2 : A.hooks = o.hooks := by rw [← hA]; rfl
  have a3 : A.sampling = o.sampling := by rw [← hA]; rfl
  clear hA hO
  by_cases hu : a.sub = .undefined
  · simp [buildRest, hu, Built.resume]
  · simp only [buildRest, hu, if_false]
    rcases registerFilter_unsampled P.engine A a1 with ⟨f, hf⟩ | ⟨e, hf⟩ | hf
    · rw [show registerFilter P.engine A = .ok (f, A) from hf A.sampling, hf]
      simp only
      rw [show initHibernation P.engine { A with sampling := {} } = initHibernation P.engine A from rfl]
      cases initHibernation P.engine A with
      | err e => rfl
      | panic => rfl
      | ok hib =>
        simp only
        have hact' : A.sampling.active = true := by simp [SamplingOptions.active, a3, hact]
        have e0 : initSampling { A with sampling := {} } = { A with sampling := {} } := rfl
        have e1 : initSampling A = A.sampler := by
          simp only [initSampling, hact', if_true, Options.sampler]
        rw [e0, e1]
        exact resume_sampled A f hib h r.strategy disk disk₀ a _ (by rw [a3]; rfl) hact' (by rw [a2]; exact hread) (by rw [a2]; exact hstatus)
          hdistinct hdisk₀ hway x
    · rw [show registerFilter P.engine A = .err e from hf A.sampling, hf]; rfl
    · rw [show registerFilter P.engine A = .panic from hf A.sampling, hf]; rfl

/-- **C32, what is false of resumed sessions**: a session saved in /r/a/b is resumed with spawn. If /r/a is gone, or cannot be read, the
resume returns the error of listing it; with sampling it returns nil and says it is complete, and nothing is delivered of /r/a. -/
theorem C32_resumed_hides :
    let go (settings : List (Option (With Nat))) (fs : FS) := walkResume sortPlatform (.relic (Demo.relic .spawn Demo.quiet))
      (settingsOf sortPlatform settings) (Demo.saved ["r", "a", "b"] .universal) (diskOf [] fs) 0
    let one : List (Option (With Nat)) := [some (.sampling { type := .slice, files := 1, dirs := 1 })]
    let gone : FS := .dir "r" none none [.dir "c" none none [.file "w" none none], .file "f" none none]
    let shut := Demo.later (some (.code 13))
    (go [] gone).verdict = .done (some (.code 2)) ∧ (go [] gone).complete = false ∧
    (go one gone).verdict = .done none ∧ (go one gone).complete = true ∧
    (go one gone).nodes.map (fun n => n.path) = [["r", "c"], ["r", "c", "w"], ["r", "f"]] ∧
    (go [] shut).verdict = .done (some (.code 13)) ∧ (go [] shut).complete = false ∧
    (go one shut).verdict = .done none ∧ (go one shut).complete = true ∧ (go one shut).nodes.map (fun n => n.path) = [["r", "f"]] := by
  decide +kernel

/-- What the sample of a resume is: of the whole directory. Resumed in /r/a/b with one file and one directory of each directory, /r/a/b
and /r/a/x are the sample of /r/a, /r/a and /r/f that of /r; resumed in /r/g, which is not in the sample of /r, nothing is delivered. -/
theorem C30_resumed_sample :
    let go (p : Path) := walkResume sortPlatform (.relic (Demo.relic .spawn Demo.quiet))
      (settingsOf sortPlatform [some (.sampling { type := .slice, files := 1, dirs := 1 })]) (Demo.saved p .universal) (diskOf [] Demo.fs) 0
    (go ["r", "a", "b"]).nodes.map (fun n => n.path) = [["r", "a", "b"], ["r", "a", "b", "y"], ["r", "a", "x"], ["r", "f"]] ∧
    (go ["r", "g"]).nodes = [] ∧ (go ["r", "g"]).verdict = .done none := by
  decide +kernel

/-- Not vacuous: what C30 assumes is so of the demo session saved in /r/a/b, for every strategy, subscription, handler and quota. -/
example (st : Strategy) (g : Path → Reply) (sub : Subscription) (quota : SamplingOptions) (hq : quota.type ≠ .undefined) :
    let P := sortPlatform
    let r := Demo.relic st g
    let files := Demo.saved ["r", "a", "b"] sub
    let a := (savedAt ["r"] ["r", "a", "b"] sub).active
    let disk := diskOf [] Demo.fs
    ∃ o, resumePlatform P r (settingsOf P [some (.sampling quota)]) (files r.from) = .ok (o, a) ∧
      resumePlatform P r (settingsOf P []) (files r.from) = .ok ({ o with sampling := {} }, a) ∧ o.sampling = quota ∧
      o.sampling.type ≠ .undefined ∧ o.filter.sample = none ∧ o.hooks.readDirectory.listeners = none ∧
      (∀ r, o.hooks.readDirectory.invoke r = defaultRead r.1 r.2) ∧ (∀ r, o.hooks.queryStatus.invoke r = r) ∧
      (∀ p fs, disk p = .ok fs → fs.Distinct) ∧ a.tree <+: a.currentPath ∧
      (∀ p, a.tree <+: p → Above p a.currentPath → ∃ fs, disk p = .ok fs ∧ fs.isDir = true) := by
  intro P r files a disk
  obtain ⟨doc, h1, h2⟩ := roundTrip P (defaultOptions P) (savedAt ["r"] ["r", "a", "b"] sub)
  have hf : files r.from = .ok doc := by
    simp only [P] at h1
    simp only [files, Demo.saved, savedFile, h1]
  refine ⟨{ fromJSON P (toJSON (defaultOptions P)) with sampling := quota }, ?_, ?_, rfl, hq, rfl, rfl, fun _ => rfl, fun _ => rfl, ?_, ?_, ?_⟩
  · rw [hf]
    simp only [resumePlatform, h2, bindOptions, applyAll_settings]
    rfl
  · rw [hf]
    simp only [resumePlatform, h2, bindOptions, applyAll_settings]
    rfl
  · intro p fs h
    exact (diskOf_at p fs h).distinct Demo.distinct
  · exact (by decide : (["r"] : Path) <+: ["r", "a", "b"])
  · intro p hp hup
    have hp : (["r"] : Path) <+: p := hp
    have hup : Above p ["r", "a", "b"] := hup
    obtain ⟨rest, rfl⟩ := hp
    obtain ⟨⟨tail, ht⟩, hne⟩ := hup
    match rest with
    | [] => exact ⟨_, rfl, rfl⟩
    | [x] =>
      simp only [List.cons_append, List.nil_append, List.cons.injEq, true_and] at ht
      obtain ⟨rfl, -⟩ := ht
      exact ⟨_, rfl, rfl⟩
    | [x, y] =>
      simp only [List.cons_append, List.nil_append, List.cons.injEq, true_and] at ht
      obtain ⟨rfl, rfl, -⟩ := ht
      exact absurd rfl hne
    | x :: y :: z :: more => simp at ht

end Traverse
