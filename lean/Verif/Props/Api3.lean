import Verif.Proofs.Sampled
import Verif.Props.Api2
import Verif.Props.Sampling
/-
More properties of whole sessions: sampling (C30 to C32) and children (C33), as the options define them.
-/
namespace Traverse
variable {κ : Type}

/-! ### Sampling -/

/-- A session setup with the sampling plugin, reading directories by `R`. -/
def Setup.sampledBy (S : Setup) (R : List Tree → Option Err → List Tree × Option Err) : Setup :=
  { S with nav := { S.nav with read := R }, sampling := true }

theorem sampledBy_metrics (S : Setup) (R) : (S.sampledBy R).metrics = S.metrics := by
  have h1 : ∀ r, r = .nanny ∨ r = .clientFilter → (r ∈ (S.sampledBy R).decorators ↔ r ∈ S.decorators) := by
    intro r hr
    have hb : ∀ b : Bool, r ∈ (if b then [Role.sampler] else []) ↔ False := by
      intro b; rcases hr with rfl | rfl <;> cases b <;> simp
    have hs : r ≠ .sampler := by rcases hr with rfl | rfl <;> decide
    simp only [Setup.decorators, Setup.activeRoles, Setup.sampledBy, List.mem_filter, List.mem_append, hb, if_true, List.mem_singleton, hs]
    exact Iff.rfl
  simp only [Setup.metrics, h1 .nanny (Or.inl rfl), h1 .clientFilter (Or.inr rfl)]

theorem sampledBy_world (S : Setup) (R) {x : κ} {carried} :
    (S.sampledBy R).world x carried = (S.world x carried).but (S.sampledBy R).guard [] := by
  simp only [Setup.world, sampledBy_metrics S R, World.but]
  rfl

theorem traverse_sampledBy (S : Setup) (ho : S.Ordinary) (C : Client κ) (R) (tree pre : Path) (t t₀ : Tree) (x : κ) (carried : Metrics) (n : Note)
    (ht : ∀ s : St (World κ), s.depth = 0 → traverse (S.sampledBy R).nav (S.env C tree []) [] pre t s = traverse S.nav (S.env C tree []) [] pre t₀ s) :
    let r := traverse (S.sampledBy R).nav ((S.sampledBy R).env C tree []) [] pre t ⟨0, ((S.sampledBy R).world x carried).publish C n, []⟩
    let r₀ := traverse S.nav (S.env C tree []) [] pre t₀ ⟨0, (S.world x carried).publish C n, []⟩
    r.1 = r₀.1 ∧ ∃ g st, r.2.ext = r₀.2.ext.but g st := by
  intro r r₀
  have ho' : (S.sampledBy R).Ordinary := ho
  have hsim := (env_alike (S := S.sampledBy R) (S' := S) ho' ho C rfl rfl rfl tree []).traverse (S.sampledBy R).nav (fun _ _ _ _ => trivial) t [] pre
    ⟨0, ((S.sampledBy R).world x carried).publish C n, []⟩ ⟨0, (S.world x carried).publish C n, []⟩ ⟨rfl, rfl, ?_⟩
  · rw [ht _ rfl] at hsim
    obtain ⟨h1, h2⟩ := hsim
    obtain ⟨⟨g, st, h3⟩, -, -⟩ := h2.ext
    exact ⟨h1, g, st, h3⟩
  · have hw := sampledBy_world (κ := κ) S R (x := x) (carried := carried)
    refine ⟨⟨(S.sampledBy R).guard, [], by rw [hw, publish_but]⟩, ⟨true, ?_⟩, ⟨true, ?_⟩⟩
    · rw [hw, publish_but]; exact guard_ok (S.sampledBy R)
    · simpa [Setup.world] using guard_ok S

theorem sampled_name (keep q) (fs : FS) : (fs.sampled keep q).name = fs.name := by
  cases fs with
  | file => simp [FS.sampled, FS.name]
  | dir n ie re kids => unfold FS.sampled; split <;> rfl

theorem registerFilter_unsampled (E : Engine) (o : Options κ) (hsample : o.filter.sample = none) :
    (∃ f, ∀ s, registerFilter E { o with sampling := s } = .ok (f, { o with sampling := s })) ∨
    (∃ e, ∀ s, registerFilter E { o with sampling := s } = .err e) ∨ (∀ s, registerFilter E { o with sampling := s } = .panic) := by
  have hp : (∃ p, ∀ s, createPrimary E { o with sampling := s } = .ok (p, { o with sampling := s })) ∨
      (∃ e, ∀ s, createPrimary E { o with sampling := s } = .err e) ∨ (∀ s, createPrimary E { o with sampling := s } = .panic) := by
    simp only [createPrimary, hsample]
    cases o.filter.custom with
    | some f =>
      rcases hv : f.validate with _ | e
      · exact Or.inl ⟨_, fun _ => by simp only [hv]; rfl⟩
      · exact Or.inr (Or.inl ⟨_, fun _ => by simp only [hv]; rfl⟩)
    | none =>
      by_cases ha : o.filter.nodeActive = true
      · simp only [ha, if_true]
        cases o.filter.node with
        | none => exact Or.inr (Or.inr fun _ => rfl)
        | some d =>
          simp only
          rcases newFilter E d o.filter with (_ | f) | e | _
          · exact Or.inr (Or.inr fun _ => rfl)
          · exact Or.inl ⟨_, fun _ => rfl⟩
          · exact Or.inr (Or.inl ⟨e, fun _ => rfl⟩)
          · exact Or.inr (Or.inr fun _ => rfl)
      · simp only [Bool.not_eq_true] at ha
        simp only [ha]
        exact Or.inl ⟨_, fun _ => rfl⟩
  rcases hp with ⟨p, hp⟩ | ⟨e, hp⟩ | hp
  · simp only [registerFilter, hp]
    rcases hc : createChild E o with c | e | _
    · exact Or.inl ⟨_, fun s => by rw [show createChild E { o with sampling := s } = createChild E o from rfl, hc]⟩
    · exact Or.inr (Or.inl ⟨e, fun s => by rw [show createChild E { o with sampling := s } = createChild E o from rfl, hc]⟩)
    · exact Or.inr (Or.inr fun s => by rw [show createChild E { o with sampling := s } = createChild E o from rfl, hc])
  · exact Or.inr (Or.inl ⟨e, fun s => by simp only [registerFilter, hp]⟩)
  · exact Or.inr (Or.inr fun s => by simp only [registerFilter, hp])

theorem chained_read (c : HookCtrl ReadResult ReadResult) (hn : c.listeners = none) (hd : ∀ r, c.invoke r = defaultRead r.1 r.2) (q : Quota) :
    (fun l e => (c.chain (sampleHook q)).invoke (l, e)) = sampledRead none (some q) := by
  funext l e
  have h1 : c.handler.run [] = fun r : ReadResult => defaultRead r.1 r.2 := by
    funext r; have := hd r; simpa [HookCtrl.invoke, hn] using this
  simp only [sampledRead, readHook, HookCtrl.chain, HookCtrl.new, HookCtrl.tap, HookCtrl.invoke, hn, h1]
  rfl

/-- The options with the sampler's function chained to the read hook. -/
def Options.sampler (A : Options κ) : Options κ :=
  { A with hooks := { A.hooks with readDirectory := A.hooks.readDirectory.chain (sampleHook A.sampling.quota) } }

theorem navigate_sampled (A : Options κ) (f : FilterOpts) (hib : HiberOpts) (sub : Subscription) (h : κ → Parcel → κ × Reply)
    (disk disk₀ : Disk) (tree : Path) (files dirs : Nat) (inReverse : Bool) (hq : A.sampling.quota = ⟨files, dirs, inReverse⟩)
    (hact : A.sampling.active = true)
    (hread : A.hooks.readDirectory.listeners = none ∧ ∀ r, A.hooks.readDirectory.invoke r = defaultRead r.1 r.2)
    (hstatus : ∀ r, A.hooks.queryStatus.invoke r = r)
    (hdistinct : ∀ fs, disk tree = .ok fs → fs.Distinct)
    (hdisk₀ : disk₀ tree = match disk tree with
      | .ok fs => .ok (fs.sampled (fun _ => true) ⟨files, dirs, inReverse⟩)
      | .error e => .error e) (x : κ) :
    (Built.ready ⟨A.sampler.nav sub, hib, f, A.sampling.active, none⟩
      A.sampler).navigate h disk tree x =
    (Built.ready { nav := Options.nav { A with sampling := {} } sub, hiber := hib, filter := f, sampling := false, resume := none }
      { A with sampling := {} }).navigate h disk₀ tree x := by
  generalize hS : ({ nav := Options.nav { A with sampling := {} } sub, hiber := hib, filter := f, sampling := false, resume := none } : Setup) = S
  have hSr : S.nav.read = defaultRead := by
    rw [← hS]; funext l e; exact hread.2 (l, e)
  have hS' : (⟨A.sampler.nav sub, hib, f, A.sampling.active, none⟩ : Setup) =
      S.sampledBy (sampledRead none (some ⟨files, dirs, inReverse⟩)) := by
    rw [hact, ← hq, ← hS, ← chained_read A.hooks.readDirectory hread.1 hread.2]
    rfl
  rw [hS']
  have hS0 : S.sampling = false := by rw [← hS]
  have ho : S.Ordinary := by rw [← hS]; exact Or.inl rfl
  simp only [Built.navigate]
  have hC : Options.client A.sampler h = A.client h := rfl
  have hC' : Options.client { A with sampling := {} } h = A.client h := rfl
  rw [hC, hC']
  generalize A.client h = C
  have key : ∃ g st, (runTop (S.sampledBy (sampledRead none (some ⟨files, dirs, inReverse⟩)))
        A.sampler C disk tree []
        ⟨0, ((S.sampledBy (sampledRead none (some ⟨files, dirs, inReverse⟩))).world x (fun _ => none)).publish C (.begin tree), []⟩).1 =
      (runTop S { A with sampling := {} } C disk₀ tree [] ⟨0, (S.world x (fun _ => none)).publish C (.begin tree), []⟩).1 ∧
      (runTop (S.sampledBy (sampledRead none (some ⟨files, dirs, inReverse⟩)))
        A.sampler C disk tree []
        ⟨0, ((S.sampledBy (sampledRead none (some ⟨files, dirs, inReverse⟩))).world x (fun _ => none)).publish C (.begin tree), []⟩).2.ext =
      (runTop S { A with sampling := {} } C disk₀ tree [] ⟨0, (S.world x (fun _ => none)).publish C (.begin tree), []⟩).2.ext.but g st := by
    have hst1 : ∀ r, A.sampler.hooks.queryStatus.invoke r = r := hstatus
    have hst2 : ∀ r, ({ A with sampling := {} } : Options κ).hooks.queryStatus.invoke r = r := hstatus
    simp only [runTop, statOf, hst1, hst2]
    cases hd : disk tree with
    | error e =>
      rw [hd] at hdisk₀
      simp only at hdisk₀
      rw [hdisk₀]
      simp only [top, Options.fault]
      have hw : ((S.sampledBy (sampledRead none (some ⟨files, dirs, inReverse⟩))).world x (fun _ => none)).publish C (.begin tree) =
          ((S.world x (fun _ => none)).publish C (.begin tree)).but (S.sampledBy (sampledRead none (some ⟨files, dirs, inReverse⟩))).guard [] := by
        rw [sampledBy_world S _, publish_but]
      rw [hw]
      exact ⟨_, _, rfl, rfl⟩
    | ok fs =>
      rw [hd] at hdisk₀
      simp only at hdisk₀
      rw [hdisk₀]
      simp only [top]
      obtain ⟨h1, g, st, h2⟩ := traverse_sampledBy S ho C (sampledRead none (some ⟨files, dirs, inReverse⟩)) tree tree.dropLast
        (prep (S.sampledBy (sampledRead none (some ⟨files, dirs, inReverse⟩))).nav fs) (prep S.nav (fs.sampled (fun _ => true) ⟨files, dirs, inReverse⟩))
        x (fun _ => none) (.begin tree) (by
          intro s _
          rw [prep_sampled _ none (fun _ => true) ⟨files, dirs, inReverse⟩ rfl rfl fs (hdistinct fs hd)]
          have : ({ (S.sampledBy (sampledRead none (some ⟨files, dirs, inReverse⟩))).nav with read := defaultRead } : Nav) = S.nav := by
            rw [← hSr]; rfl
          rw [this]
          exact traverse_nav (S.sampledBy (sampledRead none (some ⟨files, dirs, inReverse⟩))).nav S.nav rfl rfl _ _ _ _ _)
      exact ⟨g, st, by rw [h1], h2⟩
  obtain ⟨g, st, k1, k2⟩ := key
  rw [k1, k2]
  generalize runTop S { A with sampling := {} } C disk₀ tree [] ⟨0, (S.world x (fun _ => none)).publish C (.begin tree), []⟩ = r
  rcases r with ⟨_ | _, s⟩
  · simp only [publish_but]; rfl
  · rfl

/-- **C30** Sampling, whatever else is configured (filters, hibernation, a depth limit, listeners) and whatever the handlers answer: the
session is in every respect — what it returns, the handler calls with their nodes, the events, the metrics — the session without sampling
on a disk on which every directory holds only its sample: its first (last) `files` files and first (last) `directories` directories in the
order in which the file system returned them, all of them if the number is zero. -/
theorem C30_session (P : Platform κ) (u : Using κ) (settings settings₀ : List (Option (Setting κ))) (disk disk₀ : Disk) (o : Options κ)
    (hno : u.o = none) (hopt : getOptions P settings = (o, none)) (hopt₀ : getOptions P settings₀ = ({ o with sampling := {} }, none))
    (hact : o.sampling.type ≠ .undefined) (hsample : o.filter.sample = none)
    (hread : o.hooks.readDirectory.listeners = none ∧ ∀ r, o.hooks.readDirectory.invoke r = defaultRead r.1 r.2)
    (hstatus : ∀ r, o.hooks.queryStatus.invoke r = r)
    (hdistinct : ∀ fs, disk u.tree = .ok fs → fs.Distinct)
    (hdisk₀ : disk₀ u.tree = match disk u.tree with
      | .ok fs => .ok (fs.sampled (fun _ => true) ⟨o.sampling.files, o.sampling.dirs, o.sampling.inReverse⟩)
      | .error e => .error e) (x : κ) :
    walkPrime P (.using u) settings disk x = walkPrime P (.using u) settings₀ disk₀ x := by
  generalize hh : u.handler.getD (fun k _ => (k, Reply.ok none)) = h
  simp only [walkPrime, hh]
  have hpp : ∀ st o, getOptions P st = (o, none) → primaryPlatform P (.using u) st = (o, u.validate) := by
    intro st o h
    simp only [primaryPlatform, hno, h]
    cases u.validate <;> rfl
  simp only [buildPrimary, hpp _ _ hopt, hpp _ _ hopt₀]
  cases u.validate with
  | some e => rfl
  | none =>
    simp only
    have hO : (({ o with sampling := {} } : Options κ)).afterwards = { o.afterwards with sampling := {} } := rfl
    have hO' : o.afterwards = { o.afterwards with sampling := o.sampling } := rfl
    rw [hO]
    generalize hA : o.afterwards = A at *
    have a1 : A.filter.sample = none := by rw [← hA]; exact hsample
    have a2 : A.hooks = o.hooks := by rw [← hA]; rfl
    have a3 : A.sampling = o.sampling := by rw [← hA]; rfl
    clear hA hO
    by_cases hu : u.sub = .undefined
    · simp [buildRest, hu, Built.navigate]
    · simp only [buildRest, hu, if_false]
      rcases registerFilter_unsampled P.engine A a1 with ⟨f, hf⟩ | ⟨e, hf⟩ | hf
      · rw [show registerFilter P.engine A = .ok (f, A) from hf A.sampling, hf]
        simp only
        rw [show initHibernation P.engine { A with sampling := {} } = initHibernation P.engine A from rfl]
        cases initHibernation P.engine A with
        | err e => rfl
        | panic => rfl
        | ok hib =>
          simp only
          have hact' : A.sampling.active = true := by simp [SamplingOptions.active, a3, hact]
          have e0 : initSampling { A with sampling := {} } = { A with sampling := {} } := rfl
          have e1 : initSampling A = { A with hooks := { A.hooks with readDirectory := A.hooks.readDirectory.chain (sampleHook A.sampling.quota) } } := by
            simp only [initSampling, hact', if_true]
          rw [e0, e1]
          simp only
          exact navigate_sampled A f hib u.sub h disk disk₀ u.tree o.sampling.files o.sampling.dirs o.sampling.inReverse
            (by rw [a3]; rfl) hact' (by rw [a2]; exact hread) (by rw [a2]; exact hstatus) hdistinct hdisk₀ x
      · rw [show registerFilter P.engine A = .err e from hf A.sampling, hf]; rfl
      · rw [show registerFilter P.engine A = .panic from hf A.sampling, hf]; rfl

theorem sampled_ready {P : Platform κ} {u : Using κ} {settings : List (Option (Setting κ))} {o o₁ : Options κ} {S : Setup}
    (hno : u.o = none) (hopt : getOptions P settings = (o, none)) (hact : o.sampling.type ≠ .undefined) (hsample : o.filter.sample = none)
    (hread : o.hooks.readDirectory.listeners = none ∧ ∀ r, o.hooks.readDirectory.invoke r = defaultRead r.1 r.2)
    (hb : buildPrimary P (.using u) settings = .ready S o₁) :
    S.nav.read = sampledRead none (some ⟨o.sampling.files, o.sampling.dirs, o.sampling.inReverse⟩) ∧ S.nav.sort = o.hooks.sort.invoke := by
  have hpp : primaryPlatform P (.using u) settings = (o, u.validate) := by
    simp only [primaryPlatform, hno, hopt]
    cases u.validate <;> rfl
  simp only [buildPrimary, hpp] at hb
  cases hv : u.validate with
  | some e => rw [hv] at hb; cases hb
  | none =>
    rw [hv] at hb
    simp only [buildRest] at hb
    by_cases hu : u.sub = .undefined
    · rw [if_pos hu] at hb; cases hb
    · rw [if_neg hu] at hb
      rcases registerFilter_unsampled P.engine o.afterwards hsample with ⟨f, hf⟩ | ⟨e, hf⟩ | hf
      · rw [show registerFilter P.engine o.afterwards = .ok (f, o.afterwards) from hf o.afterwards.sampling] at hb
        simp only at hb
        cases hi : initHibernation P.engine o.afterwards with
        | err e => rw [hi] at hb; cases hb
        | panic => rw [hi] at hb; cases hb
        | ok hib =>
          rw [hi] at hb
          have hact' : o.afterwards.sampling.active = true := by
            rw [show o.afterwards.sampling = o.sampling from rfl]; simp [SamplingOptions.active, hact]
          simp only [initSampling, hact', if_true, Built.ready.injEq] at hb
          rw [← hb.1]
          exact ⟨chained_read o.hooks.readDirectory hread.1 hread.2 _, rfl⟩
      · rw [show registerFilter P.engine o.afterwards = .err e from hf o.afterwards.sampling] at hb; cases hb
      · rw [show registerFilter P.engine o.afterwards = .panic from hf o.afterwards.sampling] at hb; cases hb

/-- **C30** In particular the handler is called for at most `files` files (`kind = false`) and at most `directories` directories
(`kind = true`) directly inside any one directory, whatever else is configured and whatever the handlers answer. -/
theorem C30_session_at_most (P : Platform κ) (u : Using κ) (settings : List (Option (Setting κ))) (disk : Disk) (S : Setup) (o o₁ : Options κ)
    (h : κ → Parcel → κ × Reply) (pre : Path) (fs : FS) (hs : Started P u settings disk S o₁ h pre fs)
    (hno : u.o = none) (hopt : getOptions P settings = (o, none)) (hact : o.sampling.type ≠ .undefined) (hsample : o.filter.sample = none)
    (hread : o.hooks.readDirectory.listeners = none ∧ ∀ r, o.hooks.readDirectory.invoke r = defaultRead r.1 r.2)
    (hsort : ∀ l, (o.hooks.sort.invoke l).Perm l) (hdistinct : fs.Distinct) (p : Path) (kind : Bool) (limit : Nat)
    (hlimit : limit = if kind then o.sampling.dirs else o.sampling.files) (hpos : 0 < limit) (x : κ) :
    ((walkPrime P (.using u) settings disk x).nodes.filter
      (fun n => decide (n.path ≠ u.tree) && decide (n.path.dropLast = p) && n.isDir == kind)).length ≤ limit := by
  obtain ⟨h1, h2⟩ := sampled_ready hno hopt hact hsample hread hs.built
  have h3 := started_session hs x
  simp only at h3
  generalize (o₁.client h).listen x (.begin u.tree) = y at h3
  have hhits : (walkPrime P (.using u) settings disk x).hits = (S.session (o₁.client h) y (fun _ => none) [] pre fs).2.ext.hits := by
    rw [h3]
    cases (S.session (o₁.client h) y (fun _ => none) [] pre fs).1 <;> rfl
  have hsub : (walkPrime P (.using u) settings disk x).nodes.Sublist (invoked (S.session (o₁.client h) y (fun _ => none) [] pre fs).2.log) := by
    have := (session_hitsIn S (o₁.client h) y (fun _ => none) [] pre fs).map Prod.fst
    simp only [List.map_map] at this
    simp only [Report.nodes, hhits]
    exact this
  refine Nat.le_trans (hsub.filter _).length_le ?_
  rw [hs.tree]
  exact C30_at_most S.nav _ _ pre fs none (fun _ => true) _ h1 rfl (fun l => by rw [h2]; exact hsort l) hdistinct p kind limit hlimit hpos

/-! ### The sample filter -/

theorem sampled_isDir (keep q) (fs : FS) : (fs.sampled keep q).isDir = fs.isDir := by
  cases fs with
  | file => rfl
  | dir n ie re kids => unfold FS.sampled; split <;> rfl

/-- Settings with a sample filter of one kind (glob or regex) and sampling with quotas, and wake and sleep conditions (or none). -/
structure Filtered (P : Platform κ) (u : Using κ) (settings : List (Option (Setting κ))) (disk : Disk) (o : Options κ)
    (h : κ → Parcel → κ × Reply) (pre : Path) (fs : FS) (d : SampleDef) (hib : HiberOpts) : Prop where
  noOptions : u.o = none
  options : getOptions P settings = (o, none)
  custom : o.filter.custom = none
  node : o.filter.node = none
  child : o.filter.child = none
  sample : o.filter.sample = some d
  type : d.type = .glob ∨ (d.type = .regex ∧ P.engine.compiles d.pattern = true)
  oneKind : d.scope.names false ≠ d.scope.names true
  files : d.scope.names false = true → o.sampling.files ≠ 0
  dirs : d.scope.names true = true → o.sampling.dirs ≠ 0
  sampling : o.sampling.type ≠ .undefined
  wake : o.filter.Triggers P.engine fs o.hibernate.wakeAt hib.wakeAt
  sleep : o.filter.Triggers P.engine fs o.hibernate.sleepAt hib.sleepAt
  inclusiveWake : hib.inclusiveWake = o.hibernate.inclusiveWake
  inclusiveSleep : hib.inclusiveSleep = o.hibernate.inclusiveSleep
  sub : u.sub ≠ .undefined
  handler : u.handler = some h
  tree : u.tree = pre ++ [fs.name]
  disk : disk u.tree = .ok fs
  status : ∀ r, o.hooks.queryStatus.invoke r = r
  read : o.hooks.readDirectory.listeners = none

theorem upTo_sub (sleep incl) (l : List Node) (n : Node) (h : n ∈ upTo sleep incl l) : n ∈ l := by
  unfold upTo at h
  cases sleep with
  | none => exact h
  | some s =>
    simp only [List.mem_append] at h
    rcases h with h | h
    · exact (List.takeWhile_sublist _).subset h
    · cases incl
      · simp at h
      · simp only [if_true] at h
        exact (List.dropWhile_sublist _).subset ((List.take_sublist _ _).subset h)

theorem window_sub (h : HiberOpts) (l : List Node) (n : Node) (hn : n ∈ window h l) : n ∈ l := by
  unfold window at hn
  cases hw : h.wakeAt with
  | none => rw [hw] at hn; exact upTo_sub _ _ _ _ hn
  | some w =>
    rw [hw] at hn
    simp only at hn
    have hsub := List.dropWhile_sublist (l := l) (fun n => !w n)
    generalize l.dropWhile (fun n => !w n) = r at hn hsub
    cases r with
    | nil => simp at hn
    | cons m rest =>
      simp only [List.mem_append] at hn
      apply hsub.subset
      rcases hn with hn | hn
      · cases h.inclusiveWake <;> simp_all
      · exact List.mem_cons_of_mem _ (upTo_sub _ _ _ _ hn)

theorem scrub_names (s : Scope) (b : Bool) : s.scrub.names b = s.names b := by
  cases b
  · rw [← isFile_names, ← isFile_names, scrub_isFile]
  · rw [← isDirectory_names, ← isDirectory_names, scrub_isDirectory]

/-- What the filter makes of the entry of the root. -/
theorem sample_root {E : Engine} {d : SampleDef} {f n : Nat} {m} (ht : d.type = .glob ∨ d.type = .regex)
    (hnew : newSample E (some d) f n = .ok (some m)) (hone : d.scope.names false ≠ d.scope.names true) (name : String) :
    (!(m [⟨name, true, none⟩]).isEmpty) = d.keeps E ⟨name, true, none⟩ := by
  obtain ⟨rfl, _, _⟩ := newSample_native E d f n m ht hnew
  have hsc : d.scope.scrub ≠ Scope.undefined := by
    intro h0
    apply hone
    rw [← scrub_names d.scope false, ← scrub_names d.scope true, h0]; rfl
  simp only [FBase.validate, if_neg hsc, sampleMatching, sampleFetch, isFile_names, isDirectory_names, scrub_names, SampleDef.keeps]
  cases h1 : d.scope.names true with
  | true =>
    have h0 : d.scope.names false = false := by cases h : d.scope.names false <;> simp_all
    simp only [h0]
    rcases ht with ht | ht <;> simp only [ht, FBase.invert]
    · cases d.negate <;> cases hg : E.glob d.pattern name <;> simp [hg]
    · cases d.negate <;> cases hg : E.regex d.pattern name <;> simp [hg]
  | false =>
    have h0 : d.scope.names false = true := by cases h : d.scope.names false <;> simp_all
    simp [h0]

theorem newSample_made {E : Engine} {d : SampleDef} {f n : Nat} (ht : d.type = .glob ∨ (d.type = .regex ∧ E.compiles d.pattern = true))
    (hf : d.scope.names false = true → f ≠ 0) (hn : d.scope.names true = true → n ≠ 0) :
    ∃ m, newSample E (some d) f n = .ok (some m) := by
  simp only [newSample, isFile_names, isDirectory_names, scrub_names]
  have h1 : (d.scope.names false && f == 0) = false := by
    cases h : d.scope.names false
    · rfl
    · simpa using hf h
  have h2 : (d.scope.names true && n == 0) = false := by
    cases h : d.scope.names true
    · rfl
    · simpa using hn h
  rw [h1, h2]
  simp only [Bool.false_eq_true, if_false]
  rcases ht with ht | ⟨ht, hc⟩
  · rw [ht]; exact ⟨_, rfl⟩
  · rw [ht, if_pos hc]; exact ⟨_, rfl⟩

theorem filtered_started {P : Platform κ} {u settings disk o h pre fs d hib}
    (hw : Filtered P u settings disk o h pre fs d hib) (hu : o.Usual) :
    ∃ S o₁ m, Started P u settings disk S o₁ h pre fs ∧ newSample P.engine (some d) o.sampling.files o.sampling.dirs = .ok (some m) ∧
      S.filter = ⟨some (.sample m), none, fun _ => false⟩ ∧
      S.calmed.hiber = { hib with wakeDies := fun _ => false, sleepDies := fun _ => false } ∧ (∀ n : Node, n.Of fs → S.CalmAt n) ∧ S.resume = none ∧
      S.nav = { o.afterwards.nav u.sub with read := sampledRead (some m) (some o.sampling.quota) } ∧
      o₁.client h = o.client h := by
  obtain ⟨m, hm⟩ := newSample_made (E := P.engine) (d := d) (f := o.sampling.files) (n := o.sampling.dirs) hw.type hw.files hw.dirs
  have hne : u.tree ≠ [] := by rw [hw.tree]; simp
  have hv : u.validate = none := by simp [Using.validate, hne, hw.sub, hw.handler]
  have hpp : primaryPlatform P (.using u) settings = (o, none) := by simp [primaryPlatform, hw.noOptions, hv, hw.options]
  have e1 : o.afterwards.filter = o.filter := rfl
  have e2 : o.afterwards.hibernate = o.hibernate := rfl
  have e3 : o.afterwards.sampling = o.sampling := rfl
  have hsa : o.sampling.active = true := by simp [SamplingOptions.active, hw.sampling]
  let A := o.afterwards
  let B : Options κ := { A with hooks := { A.hooks with readDirectory := A.hooks.readDirectory.chain (matchingHook m) } }
  have hr : registerFilter P.engine o.afterwards = .ok (⟨some (.sample m), none, fun _ => false⟩, B) := by
    have : createPrimary P.engine o.afterwards = .ok (some (.sample m, fun _ => false), B) := by
      simp only [createPrimary, FilterOptions.nodeActive, e1, e3, hw.custom, hw.node, hw.sample, hm]
      rfl
    simp only [registerFilter, this]
    have : createChild P.engine B = .ok none := by
      simp only [createChild, show B.filter.child = none from hw.child]
    rw [this]; rfl
  obtain ⟨W, hW, hWt, hWs⟩ := triggers_make hw.wake
  obtain ⟨L, hL, hLt, hLs⟩ := triggers_make hw.sleep
  let hib' : HiberOpts := { hib with wakeDies := (W.map (Filter.dies P.engine)).getD fun _ => false, sleepDies := (L.map (Filter.dies P.engine)).getD fun _ => false }
  have hh : initHibernation P.engine B = .ok hib' := by
    simp only [initHibernation, show B.filter = o.filter from rfl, show B.hibernate = o.hibernate from rfl, hW, hL, hib']
    rw [← hw.inclusiveWake, ← hw.inclusiveSleep, hWt, hLt]
  have hread : (fun l e => ((A.hooks.readDirectory.chain (matchingHook m)).chain (sampleHook o.sampling.quota)).invoke (l, e)) =
      sampledRead (some m) (some o.sampling.quota) := by
    funext l e
    have hn : A.hooks.readDirectory.listeners = none := hw.read
    have h1 : A.hooks.readDirectory.handler.run [] = fun r : ReadResult => defaultRead r.1 r.2 := by
      funext r
      have h := hu.read r
      have : A.hooks.readDirectory = o.hooks.readDirectory := rfl
      rw [← this] at h
      simpa [HookCtrl.invoke, hn] using h
    simp only [sampledRead, readHook, HookCtrl.chain, HookCtrl.new, HookCtrl.tap, HookCtrl.invoke, hn, h1]
    rfl
  have hb : buildPrimary P (.using u) settings = .ready ⟨(initSampling B).nav u.sub, hib', ⟨some (.sample m), none, fun _ => false⟩, true, none⟩ (initSampling B) := by
    simp only [buildPrimary, hpp, buildRest, hw.sub, if_false, hr, hh]
    have : (initSampling B).sampling.active = true := by
      simp only [initSampling, show B.sampling = o.sampling from rfl, hsa, if_true]
    rw [this]
  have hi : initSampling B = { B with hooks := { B.hooks with readDirectory := B.hooks.readDirectory.chain (sampleHook o.sampling.quota) } } := by
    simp only [initSampling, show B.sampling = o.sampling from rfl, hsa, if_true]
  refine ⟨_, _, m, ⟨hb, hw.handler, hw.tree, hw.disk, ?_⟩, hm, rfl, rfl,
    fun n hn => ⟨rfl, safe_dies hWs n hn, safe_dies hLs n hn⟩, rfl, ?_, ?_⟩
  · rw [hi]; exact hw.status
  · rw [hi, ← hread]; rfl
  · rw [hi]; rfl

/-- **C31** (partial: filters for both kinds, or for none, do something else, `C31_both_kinds`; a node filter or custom filter takes the
sample filter's place.) A session with a sample filter for one kind, and the session without filter and sampling on the disk on which
every directory holds only a sample of those of its entries that satisfy the filter: the handler is called for the same nodes, in the
same order and with the same data, except for the root of the tree, which must satisfy the filter as well. Both handlers return nil;
wake and sleep conditions act on top of that. -/
theorem C31_session_partial (P : Platform κ) (u : Using κ) (settings settings₀ : List (Option (Setting κ))) (disk disk₀ : Disk) (o o₀ : Options κ)
    (h h₀ : κ → Parcel → κ × Reply) (pre : Path) (fs : FS) (d : SampleDef) (hib : HiberOpts)
    (hw : Filtered P u settings disk o h pre fs d hib)
    (hp : Primed P { u with handler := some h₀ } settings₀ disk₀ o₀ h₀ pre
      (fs.sampled (d.keeps P.engine) ⟨o.sampling.files, o.sampling.dirs, o.sampling.inReverse⟩))
    (hu : o.Usual) (hhooks : o₀.hooks = o.hooks) (hbeh : o₀.behaviours = o.behaviours) (hskip : o₀.defects.skip = o.defects.skip)
    (hdistinct : fs.Distinct) (hdir : fs.isDir = true) (hnil : Handler.Nil h) (hnil₀ : Handler.Nil h₀) (x x' : κ) :
    let rep := walkPrime P (.using u) settings disk x
    let all := (walkPrime P (.using { u with handler := some h₀ }) settings₀ disk₀ x').nodes
    rep.nodes = (window hib all).filter (fun n => n.path != u.tree || d.keeps P.engine ⟨fs.name, true, none⟩) ∧
    (u.sub ≠ .files ∨ hib.sleepAt = none → rep.verdict = .done none) := by
  obtain ⟨S', o₁, m, hst, hm, hSf', hSh, hcalm, hres', hSn', hC₁⟩ := filtered_started hw hu
  generalize hq : (⟨o.sampling.files, o.sampling.dirs, o.sampling.inReverse⟩ : Quota) = q at *
  have hq' : o.sampling.quota = q := hq
  rw [hq'] at hSn'
  have hnew : newSample P.engine (some d) q.files q.dirs = .ok (some m) := by rw [← hq]; exact hm
  have hty : d.type = .glob ∨ d.type = .regex := hw.type.imp id (·.1)
  have hu₀ : o₀.Usual := ⟨by rw [hhooks]; exact hu.read, by rw [hhooks]; exact hu.sort, by rw [hskip]; exact hu.skip⟩
  have hnav : o₀.afterwards.nav u.sub = o.afterwards.nav u.sub := by
    simp only [Options.nav, Nav.mk.injEq, true_and]
    refine ⟨?_, ?_, ?_, ?_⟩
    · show o₀.behaviours.sortFilesFirst = _; rw [hbeh]; rfl
    · show o₀.behaviours.cascade.afterwards.depth = _; rw [hbeh]; rfl
    · show (fun l e => o₀.hooks.readDirectory.invoke (l, e)) = _; rw [hhooks]; rfl
    · show o₀.hooks.sort.invoke = _; rw [hhooks]; rfl
  obtain ⟨y', tree', -, -, h3', -⟩ := primed_walk hp x'
  have h1 := started_session hst x
  simp only [calmed_session S' _ _ _ _ pre fs hcalm] at h1
  have hSf : S'.calmed.filter = ⟨some (.sample m), none, fun _ => false⟩ := by simp only [Setup.calmed, hSf']
  have hSn : S'.calmed.nav = _ := hSn'
  have hres : S'.calmed.resume = none := hres'
  have hSc := calmed_calm S'
  clear hSf' hSn' hres' hcalm
  generalize S'.calmed = S at *
  intro rep all
  rw [hC₁] at h1
  generalize hy : (o.client h).listen x (.begin u.tree) = y at h1
  -- the same setup, reading the sampled disk as it is
  let S₂ : Setup := { S with nav := { S.nav with read := defaultRead } }
  have hS₂n : S₂.nav = o.afterwards.nav u.sub := by
    have : (o.afterwards.nav u.sub).read = defaultRead := usual_read hu _
    show { S.nav with read := defaultRead } = _
    rw [hSn, ← this]
  generalize hfs : fs.sampled (d.keeps P.engine) q = fs₂ at *
  have hfn : fs₂.name = fs.name := by rw [← hfs]; exact sampled_name _ _ _
  have hfd : fs₂.isDir = true := by rw [← hfs, sampled_isDir]; exact hdir
  have hsess : S.session (o.client h) y (fun _ => none) [] pre fs = S₂.session (o.client h) y (fun _ => none) [] pre fs₂ := by
    have h31 := C31_sample_filter_partial P.engine d S.nav (S.env (o.client h) (pre ++ [fs.name]) []) (S.world y (fun _ => none)) pre fs q m hty hnew
      hw.oneKind (by rw [hSn]) hdistinct
    rw [hfs] at h31
    show walk S.nav (S.env (o.client h) (pre ++ [fs.name]) []) (S.world y (fun _ => none)) pre fs =
      walk S₂.nav (S₂.env (o.client h) (pre ++ [fs₂.name]) []) (S₂.world y (fun _ => none)) pre fs₂
    rw [h31, hfn]
    rfl
  have hord : S₂.Ordinary := Or.inl hres
  have hsane : S₂.Sane := by
    refine ⟨⟨hSc.filter, hSc.trigger⟩, ?_⟩
    intro hc
    have : S₂.filter = S.filter := rfl
    rw [this, hSf] at hc; cases hc
  have hSw : ∀ l, window S₂.hiber l = window hib l := by intro l; rw [show S₂.hiber = _ from hSh]; rfl
  have hC : (o.client h).Accepts := ⟨hnil, hu.skip⟩
  have hsort : SortPermutes S₂.nav := by rw [hS₂n]; exact usual_sort hu _
  have hread : S₂.nav.read = defaultRead := rfl
  have hd₂ : fs₂.Distinct := by rw [← hfs]; exact sampled_distinct _ _ _ hdistinct
  have hall : all = invoked (walk S₂.nav (bareEnv (primedSetup o₀ u.sub) (o₀.client h₀) tree')
      ((primedSetup o₀ u.sub).world y' (fun _ => none)) pre fs₂).2.log := by
    rw [show all = _ from h3', hS₂n, ← hnav]
  rw [hsess] at h1
  have hcalled : (S₂.session (o.client h) y (fun _ => none) [] pre fs₂).2.ext.called = (window hib all).filter S₂.accepts := by
    rw [hall, ← hSw]
    by_cases hf : u.sub = .files
    · exact C25_window_of_tree_files S₂ hord hsane _ hC y (fun _ => none) [] pre fs₂ _ _ (bare_nil _ _ hnil₀) (usual_skip hu₀ _ _)
        (by rw [hS₂n]; exact hf) hsort hread hd₂
    · exact C25_window_of_tree S₂ hord hsane _ hC y (fun _ => none) [] pre fs₂ _ _ (bare_nil _ _ hnil₀) (usual_skip hu₀ _ _)
        (by rw [hS₂n]; exact hf) hsort (defaultRead_selects _ hread) hd₂
  have hhits : rep.hits = (S₂.session (o.client h) y (fun _ => none) [] pre fs₂).2.ext.hits := by
    simp only [rep, h1]
    cases (S₂.session (o.client h) y (fun _ => none) [] pre fs₂).1 <;> rfl
  obtain ⟨-, hfin⟩ := accepted_final hord hsane (o.client h) hC y (fun _ => none) [] pre fs₂ hsort hread hd₂
  refine ⟨?_, ?_⟩
  · have : rep.nodes = (window hib all).filter S₂.accepts := by
      rw [← hcalled]; simp only [Report.nodes, hhits, World.called]
    rw [this]
    apply List.filter_congr
    intro n hn
    have hn : n ∈ all := window_sub _ _ _ hn
    rw [hall] at hn
    obtain ⟨g, hg, hgd, hgf, hgs⟩ := C24_scope S₂.nav _ _ pre fs₂ hread hsort n hn
    have h06 := C06_depth S₂.nav _ _ pre fs₂ n hn
    have hacc : S₂.accepts n = (decide (n.scope &&& Scope.tree = 0#32) || !(m [⟨n.name, n.isDir, none⟩]).isEmpty) := by
      simp only [Setup.accepts, show S₂.filter = ⟨some (.sample m), none, fun _ => false⟩ from hSf]
    rw [hacc]
    have htree : u.tree = pre ++ [fs₂.name] := by rw [hfn]; exact hw.tree
    by_cases hroot : n.path = u.tree
    · rw [hroot, htree] at hg
      obtain rfl := hg.unique hd₂ _ (.here pre fs₂)
      rw [hfd] at hgd
      have hdep : n.depth = 0 := by
        have := h06.2
        rw [hroot, htree] at this
        simp at this; omega
      have hsc : ¬ n.scope &&& Scope.tree = 0#32 := (hgs hfd).2.2.2.1.2 hdep
      have hname : n.name = fs.name := by
        simp only [NodeInfo.name, hroot, htree, hfn]; simp
      simp only [hsc, hgd, hname, hroot, sample_root hty hnew hw.oneKind]
      simp
    · have hne : (n.path != u.tree) = true := by simp [hroot]
      have hsc : n.scope &&& Scope.tree = 0#32 := by
        cases hd : g.isDir with
        | false => rw [(hgf hd).1]; rfl
        | true =>
          have := (hgs hd).2.2.2.1
          refine Decidable.byContradiction fun hc => hroot ?_
          have hdep := this.1 hc
          have h2 := h06.2
          rw [htree]
          refine (h06.1.eq_of_length ?_).symm
          simp; omega
      simp [hsc, hne]
  · intro hc
    have := hfin (by rw [hS₂n, show S₂.hiber.sleepAt = hib.sleepAt by rw [show S₂.hiber = _ from hSh]]; exact hc)
    simp only [rep, h1, this]

/-! ### Children -/

/-- The children a DirectoriesWithFiles session is to deliver, by name: those the child filter of the options matches (the pattern as a
glob or as a regular expression; `negate` turns it around); all of them when there is no filter at all. A child filter without a pattern
is none. -/
def FilterOptions.Wants (E : Engine) (f : FilterOptions) (wants : String → Bool) : Prop :=
  (∃ d, f.child = some d ∧ d.pattern ≠ "" ∧
    ((d.type = .glob ∧ ∀ name, wants name = true ↔ (E.glob d.pattern name = true ↔ d.negate = false)) ∨
     (d.type = .regex ∧ ∀ name, wants name = true ↔ (E.regex d.pattern name = true ↔ d.negate = false)))) ∨
  ((f.child = none ∨ ∃ d, f.child = some d ∧ d.pattern = "") ∧ f.custom = none ∧ f.node = none ∧ ∀ name, wants name = true)

theorem ready_filter {P : Platform κ} {u : Using κ} {settings : List (Option (Setting κ))} {o o₁ : Options κ} {S : Setup}
    (hno : u.o = none) (hopt : getOptions P settings = (o, none)) (hb : buildPrimary P (.using u) settings = .ready S o₁) :
    ∃ o', registerFilter P.engine o.afterwards = .ok (S.filter, o') ∧ o₁ = initSampling o' := by
  have hpp : primaryPlatform P (.using u) settings = (o, u.validate) := by
    simp only [primaryPlatform, hno, hopt]
    cases u.validate <;> rfl
  simp only [buildPrimary, hpp] at hb
  cases hv : u.validate with
  | some e => rw [hv] at hb; cases hb
  | none =>
    rw [hv] at hb
    simp only [buildRest] at hb
    by_cases hu : u.sub = .undefined
    · rw [if_pos hu] at hb; cases hb
    · rw [if_neg hu] at hb
      cases hr : registerFilter P.engine o.afterwards with
      | err e => rw [hr] at hb; cases hb
      | panic => rw [hr] at hb; cases hb
      | ok f =>
        rw [hr] at hb
        simp only at hb
        cases hi : initHibernation P.engine f.2 with
        | err e => rw [hi] at hb; cases hb
        | panic => rw [hi] at hb; cases hb
        | ok hib =>
          rw [hi] at hb
          simp only [Built.ready.injEq] at hb
          exact ⟨f.2, by rw [← hb.1], hb.2.symm⟩

theorem registered_children {E : Engine} {o o' : Options κ} {f : FilterOpts} {wants : String → Bool}
    (hr : registerFilter E o = .ok (f, o')) (hsample : o.filter.sample = none) (hw : o.filter.Wants E wants) :
    o' = o ∧ (f.child.isSome = true ∨ f.primary = none) ∧ (∀ m, f.primary ≠ some (.sample m)) ∧
    ∀ e : Entry, (match f.child with | none => true | some g => g e) = wants e.name := by
  simp only [registerFilter] at hr
  cases hp : createPrimary E o with
  | err e => rw [hp] at hr; cases hr
  | panic => rw [hp] at hr; cases hr
  | ok p =>
    obtain ⟨p, o1⟩ := p
    have hprim : o1 = o ∧ (∀ m, p.map Prod.fst ≠ some (.sample m)) ∧ (o.filter.custom = none → o.filter.node = none → p = none) := by
      simp only [createPrimary, hsample, FilterOptions.nodeActive] at hp
      cases hc : o.filter.custom with
      | some g =>
        rw [hc] at hp
        simp only at hp
        cases hv : g.validate <;> rw [hv] at hp <;> simp only [Made.ok.injEq, Prod.mk.injEq, reduceCtorEq] at hp
        rw [← hp.1, ← hp.2]; simp
      | none =>
        rw [hc] at hp
        cases hn : o.filter.node with
        | none => rw [hn] at hp; simp at hp; rw [← hp.1, ← hp.2]; simp
        | some d =>
          rw [hn] at hp
          simp only [Option.isSome_none, Bool.false_eq_true, if_false] at hp
          split at hp
          · split at hp
            · simp only [Made.ok.injEq, Prod.mk.injEq] at hp; rw [← hp.1, ← hp.2]; simp
            · cases hp
            · cases hp
            · cases hp
          · simp only [Made.ok.injEq, Prod.mk.injEq] at hp; rw [← hp.1, ← hp.2]; simp
    obtain ⟨rfl, h2, h3⟩ := hprim
    rw [hp] at hr
    simp only at hr
    rcases hw with ⟨d, hd, hpat, hty⟩ | ⟨hd, hc, hn, hall⟩
    · have hpat' : (d.pattern != "") = true := by simp [hpat]
      simp only [createChild, hd, hpat', if_true] at hr
      rcases hty with ⟨ht, hwant⟩ | ⟨ht, hwant⟩
      · simp only [newChild, ht] at hr
        simp only [Made.ok.injEq, Prod.mk.injEq] at hr
        obtain ⟨rfl, rfl⟩ := hr
        refine ⟨rfl, Or.inl rfl, h2, fun e => ?_⟩
        have := hwant e.name
        simp only [childPredicate]
        generalize d.negate = a, E.glob d.pattern e.name = b, wants e.name = c at this ⊢
        cases a <;> cases b <;> cases c <;> simp_all
      · simp only [newChild, ht] at hr
        by_cases hc : E.compiles d.pattern = true
        · simp only [hc, if_true, Made.ok.injEq, Prod.mk.injEq] at hr
          obtain ⟨rfl, rfl⟩ := hr
          refine ⟨rfl, Or.inl rfl, h2, fun e => ?_⟩
          have := hwant e.name
          simp only [childPredicate]
          generalize d.negate = a, E.regex d.pattern e.name = b, wants e.name = c at this ⊢
          cases a <;> cases b <;> cases c <;> simp_all
        · simp only [Bool.not_eq_true] at hc
          simp only [hc] at hr
          cases hr
    · have hcc : createChild E o1 = .ok none := by
        rcases hd with hd | ⟨d, hd, he⟩
        · simp [createChild, hd]
        · simp [createChild, hd, he]
      rw [hcc] at hr
      simp only [Made.ok.injEq, Prod.mk.injEq] at hr
      obtain ⟨rfl, rfl⟩ := hr
      exact ⟨rfl, Or.inr (by rw [h3 hc hn]; rfl), h2, fun e => (hall e.name).symm⟩

/-- None of the filters the options ask for panics on a node of a traversal of `fs`. -/
structure Options.Calm (E : Engine) (o : Options κ) (fs : FS) : Prop where
  filter : ∀ F, o.filter.Asks E (some F) → F.Safe E fs
  trigger : ∀ d F, o.hibernate.wakeAt = some d ∨ o.hibernate.sleepAt = some d → newFilter E d o.filter = .ok (some F) → F.Safe E fs

/-- That is so of all filters made of definitions, if the root is a directory; and for any root, if there is no poly filter. -/
theorem calm_native {E : Engine} {o : Options κ} {fs : FS} (hc : o.filter.custom = none)
    (hd : fs.isDir = true ∨ ∀ d, o.filter.node = some d ∨ o.hibernate.wakeAt = some d ∨ o.hibernate.sleepAt = some d → d.core.type ≠ .poly) :
    o.Calm E fs where
  filter F hF := by
    rcases hF with ⟨-, -, h⟩ | ⟨c, h, -⟩ | ⟨-, d, G, h1, h2, h3, h4⟩
    · cases h
    · rw [hc] at h; cases h
    · cases h4
      exact newFilter_safe h3 (by rw [hc]; intro _ h; cases h) (fun hp => hd.elim id fun h => absurd hp (h d (.inl h1)))
  trigger d F hdf hF :=
    newFilter_safe hF (by rw [hc]; intro _ h; cases h) (fun hp => hd.elim id fun h => absurd hp (h d (.inr hdf)))

/-- What is built of such options does not panic on these nodes. -/
theorem ready_calm {P : Platform κ} {u : Using κ} {settings : List (Option (Setting κ))} {o o₁ : Options κ} {S : Setup} {fs : FS}
    (hno : u.o = none) (hopt : getOptions P settings = (o, none)) (hb : buildPrimary P (.using u) settings = .ready S o₁)
    (hc : o.Calm P.engine fs) (n : Node) (hn : n.Of fs) : S.CalmAt n := by
  have hpp : primaryPlatform P (.using u) settings = (o, u.validate) := by
    simp only [primaryPlatform, hno, hopt]
    cases u.validate <;> rfl
  simp only [buildPrimary, hpp] at hb
  cases hv : u.validate with
  | some e => rw [hv] at hb; cases hb
  | none =>
    rw [hv] at hb
    simp only [buildRest] at hb
    by_cases hu : u.sub = .undefined
    · rw [if_pos hu] at hb; cases hb
    rw [if_neg hu] at hb
    cases hr : registerFilter P.engine o.afterwards with
    | err e => rw [hr] at hb; cases hb
    | panic => rw [hr] at hb; cases hb
    | ok f =>
      rw [hr] at hb
      simp only at hb
      cases hi : initHibernation P.engine f.2 with
      | err e => rw [hi] at hb; cases hb
      | panic => rw [hi] at hb; cases hb
      | ok hib =>
        rw [hi] at hb
        simp only [Built.ready.injEq] at hb
        obtain ⟨rfl, -⟩ := hb
        have hdead : ∀ F : Filter, F.Safe P.engine fs → F.dies P.engine n = false := by
          intro F hF
          have := hF n hn
          simp only [Filter.dies]
          cases hm : F.isMatch P.engine n.view with
          | none => exact absurd hm this
          | some b => rfl
        have hf2 : f.2.filter = o.filter ∧ f.2.hibernate = o.hibernate ∧ f.1.dies n = false := by
          obtain ⟨f, o2⟩ := f
          simp only [registerFilter] at hr
          cases hp : createPrimary P.engine o.afterwards with
          | err e => rw [hp] at hr; cases hr
          | panic => rw [hp] at hr; cases hr
          | ok p =>
            obtain ⟨p, o1⟩ := p
            rw [hp] at hr
            simp only at hr
            cases hcc : createChild P.engine o1 with
            | err e => rw [hcc] at hr; cases hr
            | panic => rw [hcc] at hr; cases hr
            | ok c =>
              rw [hcc] at hr
              simp only [Made.ok.injEq, Prod.mk.injEq] at hr
              obtain ⟨rfl, rfl⟩ := hr
              simp only [createPrimary, show o.afterwards.filter = o.filter from rfl] at hp
              cases hcu : o.filter.custom with
              | some c' =>
                rw [hcu] at hp
                simp only at hp
                cases hv : c'.validate <;> rw [hv] at hp <;> simp only [Made.ok.injEq, Prod.mk.injEq, reduceCtorEq] at hp
                obtain ⟨rfl, rfl⟩ := hp
                exact ⟨rfl, rfl, hdead _ (hc.filter _ (.inr (.inl ⟨c', hcu, hv, rfl⟩)))⟩
              | none =>
                rw [hcu] at hp
                simp only at hp
                by_cases ha : o.filter.nodeActive = true
                · rw [if_pos ha] at hp
                  cases hnd : o.filter.node with
                  | none => rw [hnd] at hp; cases hp
                  | some d =>
                    rw [hnd] at hp
                    simp only at hp
                    split at hp <;> simp only [Made.ok.injEq, Prod.mk.injEq, reduceCtorEq] at hp
                    rename_i F hF
                    obtain ⟨rfl, rfl⟩ := hp
                    exact ⟨rfl, rfl, hdead _ (hc.filter _ (.inr (.inr ⟨hcu, d, F, hnd, ha, hF, rfl⟩)))⟩
                · rw [if_neg ha] at hp
                  split at hp
                  · split at hp <;> simp only [Made.ok.injEq, Prod.mk.injEq, reduceCtorEq] at hp
                    obtain ⟨rfl, rfl⟩ := hp
                    exact ⟨rfl, rfl, rfl⟩
                  · simp only [Made.ok.injEq, Prod.mk.injEq] at hp
                    obtain ⟨rfl, rfl⟩ := hp
                    exact ⟨rfl, rfl, rfl⟩
        obtain ⟨g1, g2, g3⟩ := hf2
        simp only [initHibernation, g1, g2] at hi
        have htrig : ∀ d t, (o.hibernate.wakeAt = d ∨ o.hibernate.sleepAt = d) → makeTrigger P.engine o.filter d = .ok t →
            ((t.map (Filter.dies P.engine)).getD fun _ => false) n = false := by
          intro d t hd ht
          cases d with
          | none => cases ht; rfl
          | some d =>
            simp only [makeTrigger] at ht
            split at ht <;> simp only [Made.ok.injEq, reduceCtorEq] at ht
            rename_i F hF
            subst ht
            exact hdead _ (hc.trigger d F hd hF)
        split at hi <;> try cases hi
        rename_i w hw
        split at hi <;> cases hi
        rename_i s hs
        exact ⟨g3, htrig _ _ (.inl rfl) hw, htrig _ _ (.inr rfl) hs⟩

/-- **C33** (partial: a node filter, custom filter or sample filter without a child filter is the exception, see
`C33_node_filter_loses_children`). A DirectoriesWithFiles session with a child filter, alone or next to a node filter or custom filter, or
without any filter; whatever the depth limit, the hibernation conditions, the listeners and the replies of the handler. `at_` pairs
each handler call with the directory it was for: the Children are exactly the wanted files of that directory, in the order of the sort
hook; and if Navigate returns, the metrics found and filtered out of children add up to the number of files in these directories. -/
theorem C33_session_partial (P : Platform κ) (u : Using κ) (settings : List (Option (Setting κ))) (disk : Disk) (S : Setup) (o o₁ : Options κ)
    (h : κ → Parcel → κ × Reply) (pre : Path) (fs : FS) (hs : Started P u settings disk S o₁ h pre fs)
    (hno : u.o = none) (hopt : getOptions P settings = (o, none)) (hsub : u.sub = .directoriesWithFiles)
    (wants : String → Bool) (hw : o.filter.Wants P.engine wants) (hsample : o.filter.sample = none) (hsampling : o.sampling.type = .undefined)
    (hread : ∀ r, o.hooks.readDirectory.invoke r = defaultRead r.1 r.2) (hsort : ∀ l, (o.hooks.sort.invoke l).Perm l)
    (hcalm : o.Calm P.engine fs) (x : κ) :
    let rep := walkPrime P (.using u) settings disk x
    ∃ at_ : List (Hit × FS), at_.map Prod.fst = rep.hits ∧
      (∀ p ∈ at_, FS.At pre fs p.1.parcel.node.path p.2 ∧
        p.1.parcel.children = ((o.nav u.sub).sortEntries p.2.fileEntries).filter (fun e => wants e.name) ∧
        p.1.parcel.children.Perm (p.2.fileEntries.filter (fun e => wants e.name))) ∧
      (rep.complete = true → rep.metrics.count .childFound + rep.metrics.count .childFilteredOut =
        (at_.map (fun p => p.2.fileEntries.length)).sum ∧
        rep.metrics.count .childFound = (rep.hits.map (fun h => h.parcel.children.length)).sum) := by
  obtain ⟨o', hr, ho₁⟩ := ready_filter hno hopt hs.built
  obtain ⟨rfl, hk, hnode, hwants⟩ := registered_children (o := o.afterwards) hr hsample hw
  have hact : o.afterwards.sampling.active = false := by
    show o.sampling.active = false
    simp [SamplingOptions.active, hsampling]
  have ho₁ : o₁ = o.afterwards := by simpa [initSampling, hact] using ho₁
  obtain ⟨hres, hnav, -⟩ := primary_ready hs.built
  have hSr : S.nav.read = defaultRead := by rw [hnav, ho₁]; funext l e; exact hread (l, e)
  have hSs : S.nav.sort = o.hooks.sort.invoke := by rw [hnav, ho₁]; rfl
  have hSe : S.nav.sortEntries = (o.nav u.sub).sortEntries := by funext l; simp only [Nav.sortEntries, hSs]; rfl
  have hSk : S.keeps = fun e => wants e.name := by funext e; exact hwants e
  have h1 := started_session hs x
  simp only [calmed_session S _ _ _ _ pre fs (ready_calm hno hopt hs.built hcalm)] at h1
  intro rep
  have hSc := calmed_calm S
  rw [show S.filter.child = S.calmed.filter.child from rfl, show S.filter.primary = S.calmed.filter.primary from rfl] at hk
  rw [show S.filter.primary = S.calmed.filter.primary from rfl] at hnode
  rw [show S.nav = S.calmed.nav from rfl] at hnav hSr hSs hSe
  rw [show S.resume = S.calmed.resume from rfl] at hres
  rw [show S.keeps = S.calmed.keeps from rfl] at hSk
  clear hwants hr hs
  generalize S.calmed = S at *
  generalize (o₁.client h).listen x (.begin u.tree) = y at h1
  obtain ⟨at_, a1, a2, a3, a4⟩ := C33_children_partial S (Or.inl hres) hSc (by rw [hnav]; exact hsub) hk hnode hSr
    (fun l => by rw [hSs]; exact hsort l) (o₁.client h) y (fun _ => none) [] pre fs
  have hhits : rep.hits = (S.session (o₁.client h) y (fun _ => none) [] pre fs).2.ext.hits := by
    simp only [rep, h1]
    cases (S.session (o₁.client h) y (fun _ => none) [] pre fs).1 <;> rfl
  have hzero : ∀ k, (S.world y (fun _ => none)).metrics.count k = 0 := by
    intro k
    simp only [Setup.world, Metrics.count, Metrics.merge, Setup.metrics]
    by_cases h1 : Role.nanny ∈ S.decorators <;> by_cases h2 : Role.clientFilter ∈ S.decorators <;>
      simp only [h1, h2, if_true, if_false] <;> cases k <;> rfl
  rw [hzero, hzero] at a3
  rw [hzero] at a4
  refine ⟨at_, by rw [a1, hhits], ?_, ?_⟩
  · rw [hSe, hSk] at a2; exact a2
  · intro hcomp
    have hm : rep.metrics = (S.session (o₁.client h) y (fun _ => none) [] pre fs).2.ext.metrics := by
      simp only [rep, h1] at hcomp ⊢
      cases hf : (S.session (o₁.client h) y (fun _ => none) [] pre fs).1 with
      | panic => simp [hf] at hcomp
      | done e => rfl
    rw [hm, hhits]
    exact ⟨by omega, by omega⟩

/-- The disk of `Demo.fs` on which every directory holds only its first file and its first directory. -/
def Demo.sampled : FS := Demo.fs.sampled (fun _ => true) ⟨1, 1, false⟩

/-- Not vacuous, C30: one file and one directory of each directory, with a filter that rejects "y" (nothing replaces it) and a sleep
condition; the hypotheses of both theorems are met. -/
example :
    let P := sortPlatform
    let h := Demo.byPath fun _ => .ok none
    let u (sub) : Using Nat := { toyUsing sub with handler := some h }
    let others : List (Option (With Nat)) := [some (.filterSleep (some (.plain { type := .regex, pattern := "x" }))),
      some (.filter { node := some (.plain { type := .regex, pattern := "y", negate := true }) } none)]
    let quota : SamplingOptions := { type := .slice, files := 1, dirs := 1 }
    let shown (sub) (ws) (fs : FS) := (walkPrime P (.using (u sub)) (settingsOf P ws) (diskOf [] fs) 0).nodes.map fun n => n.path
    (∃ o, getOptions P (settingsOf P (others ++ [some (.sampling quota)])) = (o, none) ∧
      getOptions P (settingsOf P others) = ({ o with sampling := {} }, none) ∧ o.sampling = quota ∧ o.filter.sample = none ∧
      (o.hooks.readDirectory.listeners = none ∧ ∀ r, o.hooks.readDirectory.invoke r = defaultRead r.1 r.2) ∧
      (∀ r, o.hooks.queryStatus.invoke r = r) ∧ (∀ l, (o.hooks.sort.invoke l).Perm l)) ∧
    diskOf [] Demo.fs ["r"] = .ok Demo.fs ∧ Demo.fs.Distinct ∧ diskOf [] Demo.sampled ["r"] = .ok Demo.sampled ∧
    (∀ sub, sub ≠ .undefined → ∃ S o, Started P (u sub) (settingsOf P (others ++ [some (.sampling quota)])) (diskOf [] Demo.fs) S o h [] Demo.fs) ∧
    shown .universal [] Demo.fs = [["r"], ["r", "a"], ["r", "a", "b"], ["r", "a", "b", "y"], ["r", "a", "b", "z"], ["r", "a", "x"], ["r", "c"],
      ["r", "c", "w"], ["r", "f"], ["r", "g"]] ∧
    shown .universal (others ++ [some (.sampling quota)]) Demo.fs = shown .universal others Demo.sampled ∧
    shown .universal (others ++ [some (.sampling quota)]) Demo.fs = [["r"], ["r", "a"], ["r", "a", "b"]] ∧
    shown .universal [some (.sampling quota)] Demo.fs = [["r"], ["r", "a"], ["r", "a", "b"], ["r", "a", "b", "y"], ["r", "a", "x"], ["r", "f"]] := by
  intro P h u others quota shown
  refine ⟨⟨_, rfl, rfl, rfl, rfl, ⟨rfl, fun _ => rfl⟩, fun _ => rfl, fun l => (insertSort_sorts _ l).1⟩,
    diskOf_holds Demo.distinct _ _ (.here [] Demo.fs), Demo.distinct, rfl, ?_, by decide +kernel⟩
  intro sub hs
  have key : ∃ S o, buildPrimary P (.using (u sub)) (settingsOf P (others ++ [some (.sampling quota)])) = .ready S o ∧
      (∀ r, o.hooks.queryStatus.invoke r = r) := by
    cases sub <;> first | exact absurd rfl hs | exact ⟨_, _, rfl, fun _ => rfl⟩
  obtain ⟨S', o', h1, h2⟩ := key
  exact ⟨S', o', ⟨h1, rfl, rfl, diskOf_holds Demo.distinct _ _ (.here [] Demo.fs), h2⟩⟩

/-- Not vacuous, C33: the children that do not begin with "y"; next to a node filter that drops the directory "c"; without any filter. -/
example :
    let P := sortPlatform
    let h := Demo.byPath fun _ => .ok none
    let u : Using Nat := { toyUsing .directoriesWithFiles with handler := some h }
    let cd : ChildDef := { type := .regex, pattern := "y", negate := true }
    let nd : FilterDef := .plain { type := .regex, pattern := "c", negate := true }
    let shown (ws) := let rep := walkPrime P (.using u) (settingsOf P ws) (diskOf [] Demo.fs) 0
      (rep.hits.map (fun h => (h.parcel.node.path, h.parcel.children.map (·.name))), rep.metrics.count .childFound, rep.metrics.count .childFilteredOut)
    (∀ f ∈ [({ child := some cd } : FilterOptions), { node := some nd, child := some cd }],
      ∃ S o o₁ wants, Started P u (settingsOf P [some (.filter f none)]) (diskOf [] Demo.fs) S o₁ h [] Demo.fs ∧
      getOptions P (settingsOf P [some (.filter f none)]) = (o, none) ∧ o.filter.Wants P.engine wants ∧ o.filter.sample = none ∧
      o.sampling.type = .undefined ∧ o.Usual ∧ o.Calm P.engine Demo.fs) ∧
    (defaultOptions P).filter.Wants P.engine (fun _ => true) ∧ (defaultOptions P).Calm P.engine Demo.fs ∧
    shown [some (.filter { child := some cd } none)] =
      ([(["r"], ["f", "g"]), (["r", "a"], ["x"]), (["r", "a", "b"], ["z"]), (["r", "c"], ["w"])], 5, 1) ∧
    shown [some (.filter { node := some nd, child := some cd } none)] =
      ([(["r"], ["f", "g"]), (["r", "a"], ["x"]), (["r", "a", "b"], ["z"])], 4, 1) ∧
    shown [] = ([(["r"], ["f", "g"]), (["r", "a"], ["x"]), (["r", "a", "b"], ["y", "z"]), (["r", "c"], ["w"])], 6, 0) := by
  intro P h u cd nd shown
  refine ⟨?_, .inr ⟨.inl rfl, rfl, rfl, fun _ => rfl⟩, calm_native rfl (.inl rfl), by decide +kernel⟩
  intro f hf
  have key : ∃ S o o₁, buildPrimary P (.using u) (settingsOf P [some (.filter f none)]) = .ready S o₁ ∧
      getOptions P (settingsOf P [some (.filter f none)]) = (o, none) ∧ o.filter.child = some cd ∧ o.filter.sample = none ∧
      o.sampling.type = .undefined ∧ o.Usual ∧ (∀ r, o₁.hooks.queryStatus.invoke r = r) ∧ o.filter.custom = none := by
    simp only [List.mem_cons, List.not_mem_nil, or_false] at hf
    rcases hf with rfl | rfl <;> exact ⟨_, _, _, rfl, rfl, rfl, rfl, rfl, ⟨fun _ => rfl, fun l => (insertSort_sorts _ l).1, fun _ _ _ => rfl⟩, fun _ => rfl, rfl⟩
  obtain ⟨S, o, o₁, e1, e2, e3, e4, e5, e6, e7, e8⟩ := key
  refine ⟨S, o, o₁, fun name => !P.engine.regex cd.pattern name, ⟨e1, rfl, rfl, diskOf_holds Demo.distinct _ _ (.here [] Demo.fs), e7⟩, e2,
    .inl ⟨cd, e3, by decide, .inr ⟨rfl, fun name => ?_⟩⟩, e4, e5, e6, calm_native e8 (.inl rfl)⟩
  show (!P.engine.regex cd.pattern name) = true ↔ (P.engine.regex cd.pattern name = true ↔ true = false)
  generalize P.engine.regex cd.pattern name = b
  cases b <;> simp

/-- Not vacuous, C31: the first file that is not "f" and the first directory of each directory; the first directory that begins with
"c" of each directory, where the root itself does not pass. -/
example :
    let P := sortPlatform
    let h := Demo.byPath fun _ => .ok none
    let u (sub) : Using Nat := { toyUsing sub with handler := some h }
    let d₁ : SampleDef := { type := .regex, pattern := "f", negate := true, scope := Scope.file }
    let d₂ : SampleDef := { type := .regex, pattern := "c", scope := Scope.directory }
    let settings (d : SampleDef) := settingsOf P [some (.filter { sample := some d } none), some (.sampling { type := .slice, files := 1, dirs := 1 })]
    let shown (d) := (walkPrime P (.using (u .universal)) (settings d) (diskOf [] Demo.fs) 0).nodes.map fun n => n.path
    (∀ d ∈ [d₁, d₂], ∀ sub, sub ≠ .undefined → ∃ o hib, Filtered P (u sub) (settings d) (diskOf [] Demo.fs) o h [] Demo.fs d hib ∧ o.Usual ∧
      o.sampling.quota = ⟨1, 1, false⟩ ∧ o.hooks = (defaultOptions P).hooks ∧ o.behaviours = (defaultOptions P).behaviours ∧
      o.defects.skip = (defaultOptions P).defects.skip ∧
      Primed P (u sub) [] (diskOf [] (Demo.fs.sampled (d.keeps P.engine) ⟨1, 1, false⟩)) (defaultOptions P) h []
        (Demo.fs.sampled (d.keeps P.engine) ⟨1, 1, false⟩)) ∧
    shown d₁ = [["r"], ["r", "a"], ["r", "a", "b"], ["r", "a", "b", "y"], ["r", "a", "x"], ["r", "g"]] ∧
    shown d₂ = [["r", "c"], ["r", "c", "w"], ["r", "f"]] := by
  intro P h u d₁ d₂ settings shown
  refine ⟨?_, by decide +kernel⟩
  intro d hd sub hs
  have hd' : d.type = .regex ∧ P.engine.compiles d.pattern = true ∧ d.scope.names false ≠ d.scope.names true := by
    simp only [List.mem_cons, List.not_mem_nil, or_false] at hd
    rcases hd with rfl | rfl <;> decide
  have key : ∃ o, getOptions P (settings d) = (o, none) ∧ o.filter.custom = none ∧ o.filter.node = none ∧ o.filter.child = none ∧
      o.filter.sample = some d ∧ o.sampling = { type := .slice, files := 1, dirs := 1 } ∧ o.hibernate.wakeAt = none ∧ o.hibernate.sleepAt = none ∧
      (∀ r, o.hooks.queryStatus.invoke r = r) ∧ o.hooks.readDirectory.listeners = none ∧ o.Usual ∧
      o.hooks = (defaultOptions P).hooks ∧ o.behaviours = (defaultOptions P).behaviours ∧ o.defects.skip = (defaultOptions P).defects.skip :=
    ⟨_, rfl, rfl, rfl, rfl, rfl, rfl, rfl, rfl, fun _ => rfl, rfl,
      ⟨fun _ => rfl, fun l => (insertSort_sorts _ l).1, fun _ _ _ => rfl⟩, rfl, rfl, rfl⟩
  obtain ⟨o, e1, e2, e3, e4, e5, e6, e7, e8, e9, e10, e11, e12, e13, e14⟩ := key
  refine ⟨o, ⟨none, none, o.hibernate.inclusiveWake, o.hibernate.inclusiveSleep, fun _ => false, fun _ => false⟩,
    ⟨rfl, e1, e2, e3, e4, e5, .inr ⟨hd'.1, hd'.2.1⟩, hd'.2.2, by rw [e6]; simp, by rw [e6]; simp, by rw [e6]; simp, .inl ⟨e7, rfl⟩, .inl ⟨e8, rfl⟩,
      rfl, rfl, hs, rfl, rfl, diskOf_holds Demo.distinct _ _ (.here [] Demo.fs), e9, e10⟩, e11, by rw [e6]; rfl, e12, e13, e14, ?_⟩
  exact Demo.primed sub hs _ _ _ (sampled_distinct _ _ _ Demo.distinct) (sampled_name _ _ _) rfl _

end Traverse
