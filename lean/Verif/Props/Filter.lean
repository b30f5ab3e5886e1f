import Verif.Props.Hibernate
/-
C21: a filter decides callbacks, not navigation. C22: nothing gets lost in the filter.
-/
namespace Traverse
variable {κ : Type}

theorem window_inactive {h : HiberOpts} (ha : h.active = false) (l : List Node) : window h l = l := by
  unfold HiberOpts.active at ha
  simp at ha
  simp [window, upTo, ha.1, ha.2]

theorem invoke_plain {S : Setup} {C : Client κ} {target} {w : World κ} (hg : ∃ fw, GuardOK S fw w.guard)
    (hm : ∀ e, w.muted e = false) (hd : S.hibOf w ≠ .undefined)
    (ho : S.Ordinary) (hs : S.Sane) (n : Node) (hn : GoodNode S.nav n) :
    PlainStep S C w n (World.invoke S C target w n).1 (World.invoke S C target w n).2 ∧
    ∃ fw, GuardOK S fw (World.invoke S C target w n).1.guard := by
  obtain ⟨fw, hg⟩ := hg
  have hb := invoke_big (C := C) (target := target) hg n
  have hr : S.resume ≠ some .fastward := by rcases ho with h | h <;> simp [h]
  have hp := big_plain S C target fw w.touched n hr hn hs hd ⟨hm _, hm _⟩
  obtain ⟨_, _, _, _, _, _, fw', _, h6⟩ := big_facts S C target fw w.touched n hg.touched
  rw [hb]
  exact ⟨⟨hp.hib, hp.muted, hp.saves, hp.tape, hp.metrics, hp.hits, hp.slept, hp.rejected, hp.client, hp.reached,
    hp.handled⟩, fw', h6⟩

/-- C21, callbacks: with a node filter `f` the handler is called exactly for the nodes navigated to that `f` matches, in
that order, each as often as navigated to. -/
theorem C21_calls (S : Setup) (ho : S.Ordinary) (hs : S.Sane) (f : Node → Bool)
    (hf : S.filter.primary = some (.node f)) (hh : S.hiber.wakeAt = none ∧ S.hiber.sleepAt = none) (C : Client κ) (x : κ)
    (carried : Metrics) (target pre : Path) (fs : FS) :
    let r := S.session C x carried target pre fs
    r.2.ext.called = (invoked r.2.log).filter f := by
  intro r
  have h := (C25_window S ho hs C x carried target pre fs).1
  rw [window_inactive (by simp [HiberOpts.active, hh.1, hh.2])] at h
  have : S.accepts = f := by funext n; simp [Setup.accepts, hf]
  rw [this] at h
  exact h

/-- The same session without the filter. -/
def Setup.unfiltered (S : Setup) : Setup := { S with filter := {} }

/-- The notifications among what the client side sees. -/
def Obs.isNote : Obs → Bool
  | .note _ => true
  | .call _ => false

/-- A client for the unfiltered session that replies as `C` where the filter matches, and with nil, doing nothing,
elsewhere. (With DirectoriesWithFiles the unfiltered session shows Children which a filtered one does not; the client
compared with does not look at them.) -/
def Client.asFiltered (C : Client κ) (S : Setup) (f : Node → Bool) : Client κ :=
  { C with handler := fun k p => if f p.node then C.handler k ⟨p.node, S.childrenOf p.node⟩ else (k, .ok none) }

/-- C21, navigation: everything the navigator does (descend and ascend events, calls into the chain with their
outcomes, skip queries, rescues) and what it returns is the same as in the unfiltered session whose handler replies
equally on matching nodes and nil on the others; the listeners hear the same notifications and the client ends in the
same state. The metrics differ, so the panic handler is taken not to depend on those. -/
theorem C21_navigation (S : Setup) (ho : S.Ordinary) (hs : S.Sane) (f : Node → Bool)
    (hf : S.filter.primary = some (.node f)) (hh : S.hiber.wakeAt = none ∧ S.hiber.sleepAt = none) (C : Client κ)
    (hpan : ∀ k a m, C.panics k { a with metrics := m } = C.panics k a) (x : κ)
    (carried : Metrics) (target pre : Path) (fs : FS) :
    let r := S.session C x carried target pre fs
    let u := S.unfiltered.session (C.asFiltered S f) x carried target pre fs
    r.1 = u.1 ∧ r.2.log = u.2.log ∧ r.2.ext.client = u.2.ext.client ∧
      r.2.ext.tape.filter Obs.isNote = u.2.ext.tape.filter Obs.isNote := by
  intro r u
  have hact : S.hiber.active = false := by simp [HiberOpts.active, hh.1, hh.2]
  have hhib : ∀ w : World κ, S.hibOf w = .active := by intro w; simp [Setup.hibOf, hact]
  have hhib' : ∀ w : World κ, S.unfiltered.hibOf w = .active := by
    intro w; simp [Setup.hibOf, Setup.unfiltered, hact]
  have haw : ∀ (w : World κ) n, S.awake w n = true := by
    intro w n; unfold Setup.awake; rw [hhib, (hibStep_inactive hact n).1]
  have hacc : ∀ n, S.accepts n = f n := by intro n; simp [Setup.accepts, hf]
  have hacc' : ∀ n, S.unfiltered.accepts n = true := by intro n; simp [Setup.accepts, Setup.unfiltered]
  have hno : ∀ n, hibNote S.hiber .active n = [] := fun n => (hibStep_inactive hact n).2
  have hcn : ∀ (b : Bool) n, (if b = true then [Obs.call n] else []).filter Obs.isNote = [] := by
    intro b n; cases b <;> rfl
  let R : World κ → World κ → Prop := fun a b => a.client = b.client ∧
    a.tape.filter Obs.isNote = b.tape.filter Obs.isNote ∧ (∃ fw, GuardOK S fw a.guard) ∧ (∀ e, a.muted e = false) ∧
    (∃ fw, GuardOK S.unfiltered fw b.guard) ∧ (∀ e, b.muted e = false)
  have hpub : ∀ a b n, R a b → R (a.publish C n) (b.publish (C.asFiltered S f) n) := by
    intro a b n ⟨h1, h2, h3, h4, h5, h6⟩
    refine ⟨?_, ?_, by simpa using h3, by simpa using h4, by simpa using h5, by simpa using h6⟩
    · simp [World.publish, h4, h6, h1, Client.asFiltered]
    · simp [World.publish, h4, h6, h2]
  have hsim : Sim (GoodNode S.nav) (S.env C (pre ++ [fs.name]) target)
      (S.unfiltered.env (C.asFiltered S f) (pre ++ [fs.name]) target) R := by
    refine ⟨fun a b p d h => hpub _ _ _ h, fun a b p d h => hpub _ _ _ h, ?_, ?_, ?_⟩
    · intro a b n hn ⟨h1, h2, h3, h4, h5, h6⟩
      obtain ⟨p1, g1⟩ := invoke_plain (C := C) (target := target) h3 h4 (by rw [hhib]; simp) ho hs n hn
      obtain ⟨p2, g2⟩ := invoke_plain (S := S.unfiltered) (C := C.asFiltered S f) (target := target) h5 h6
        (by rw [hhib']; simp) ho ⟨⟨fun _ => rfl, hs.trigger⟩, by simp [Setup.unfiltered]⟩ n hn
      have q1 := p1.client hact
      have q2 := (p2.client hact).1 (hacc' n)
      rw [hacc] at q1
      have t1 : (World.invoke S C target a n).1.tape.filter Obs.isNote = a.tape.filter Obs.isNote := by
        rw [p1.tape, hhib, hno, List.append_nil, List.filter_append, hcn, List.append_nil]
      have t2 : (World.invoke S.unfiltered (C.asFiltered S f) target b n).1.tape.filter Obs.isNote =
          b.tape.filter Obs.isNote := by
        rw [p2.tape, hhib', show hibNote S.unfiltered.hiber .active n = [] from hno n, List.append_nil,
          List.filter_append, hcn, List.append_nil]
      show (World.invoke S C target a n).2 = (World.invoke S.unfiltered (C.asFiltered S f) target b n).2 ∧
        R (World.invoke S C target a n).1 (World.invoke S.unfiltered (C.asFiltered S f) target b n).1
      refine ⟨?_, ?_, by rw [t1, t2, h2], g1, by rw [p1.muted]; exact h4, g2, by rw [p2.muted]; exact h6⟩
      · cases hfn : f n
        · rw [p1.rejected (haw a n) (by rw [hacc, hfn]), q2.2]
          simp [Client.asFiltered, hfn]
        · rw [(q1.1 hfn).2, q2.2, h1]
          simp [Client.asFiltered, hfn]
      · cases hfn : f n
        · rw [q1.2 hfn, q2.1, h1]
          simp [Client.asFiltered, hfn]
        · rw [(q1.1 hfn).1, q2.1, h1]
          simp [Client.asFiltered, hfn]
    · intro a b n re _ ⟨h1, h2, h3, h4, h5, h6⟩
      simp only [Setup.env, Client.asFiltered, h1]
      exact ⟨trivial, rfl, h2, h3, h4, h5, h6⟩
    · intro a b n d ⟨h1, h2, h3, h4, h5, h6⟩
      have e : ∀ m1 m2 : Metrics,
          C.panics a.client ⟨pre ++ [fs.name], S.nav.sub, .retired, n.path, n.isDir, d, m1⟩ =
          C.panics b.client ⟨pre ++ [fs.name], S.nav.sub, .retired, n.path, n.isDir, d, m2⟩ := by
        intro m1 m2
        rw [h1]
        exact hpan b.client ⟨pre ++ [fs.name], S.nav.sub, .retired, n.path, n.isDir, d, m2⟩ m1
      simp only [Setup.env, Client.asFiltered, Setup.unfiltered]
      rw [e a.metrics.persisted b.metrics.persisted]
      exact ⟨rfl, rfl, h2, h3, h4, h5, h6⟩
  have hR : R (S.world x carried) (S.unfiltered.world x carried) := by
    have i1 := plainInv_start S ho x carried
    have i2 := plainInv_start S.unfiltered ho x carried
    exact ⟨rfl, rfl, i1.guard, i1.muted, i2.guard, i2.muted⟩
  have h := hsim.traverse S.nav (fun ps path t d => mkNode_good S.nav ps path t d) (prep S.nav fs) [] pre
    (St.fresh (S.world x carried)) (St.fresh (S.unfiltered.world x carried)) ⟨rfl, rfl, hR⟩
  refine ⟨?_, h.2.log, h.2.ext.1, h.2.ext.2.1⟩
  exact congrArg Out.final h.1

/-- Not vacuous: five of ten nodes pass the filter and a skipping reply prunes, in both sessions alike. -/
example :
    let S := Demo.filtered .universal
    let C := Demo.client (Demo.at_ ["r", "c"] (.ok (some .skipDir)))
    let r := S.session C () (fun _ => none) [] [] Demo.fs
    let u := S.unfiltered.session (C.asFiltered S Demo.noFB) () (fun _ => none) [] [] Demo.fs
    r.2.ext.called.map (·.name) = ["r", "c", "a", "z", "y", "x", "g"] ∧
    u.2.ext.called.map (·.name) = ["r", "c", "a", "b", "z", "y", "x", "g", "f"] ∧
    (invoked r.2.log).map (·.name) = ["r", "c", "a", "b", "z", "y", "x", "g", "f"] := by
  decide +kernel

/-! ### C22 -/

structure FilterCounts (base : Bool → Nat) (w : World κ) : Prop where
  reg : ∀ d, (w.metrics (filteredMetric d)).isSome = true
  now : ∀ d, ofKind d w.called + w.metrics.count (filteredMetric d) = base d + ofKind d (w.reached .clientFilter)
  seen : ∀ h1 hit h2, w.hits = h1 ++ hit :: h2 → ∃ r1 r2,
    w.reached .clientFilter = (r1 ++ [hit.parcel.node]) ++ r2 ∧ ∀ d,
    ofKind d ((h1 ++ [hit]).map (fun h => h.parcel.node)) + hit.seen.count (filteredMetric d) =
      base d + ofKind d (r1 ++ [hit.parcel.node])

theorem FilterCounts.same {base} {w w' : World κ} (h : FilterCounts base w) (hm : w'.metrics = w.metrics)
    (hh : w'.hits = w.hits) (hst : w'.steps = w.steps) : FilterCounts base w' := by
  have hr : w'.reached .clientFilter = w.reached .clientFilter := by unfold World.reached; rw [hst]
  constructor
  · rw [hm]; exact h.reg
  · unfold World.called; rw [hm, hh, hr]; exact h.now
  · rw [hh, hr]; exact h.seen

theorem countF_filtered (S : Setup) (f) (hf : S.filter.primary = some (.node f)) (m : Metrics) (n : Node) (d : Bool)
    (hreg : ∀ d, (m (filteredMetric d)).isSome = true) :
    (S.countF m n).count (filteredMetric d) =
      m.count (filteredMetric d) + (if n.isDir = d ∧ f n = false then 1 else 0) ∧
    ((S.countF m n) (filteredMetric d)).isSome = true := by
  have hact : S.filter.active = true := by simp [FilterOpts.active, hf]
  have hacc : S.accepts n = f n := by simp [Setup.accepts, hf]
  have hP : (S.countP m n).count (filteredMetric d) =
      m.count (filteredMetric d) + (if n.isDir = d ∧ f n = false then 1 else 0) ∧
      ((S.countP m n) (filteredMetric d)).isSome = true := by
    unfold Setup.countP
    rw [hf]
    simp only
    cases hfn : f n
    · simp only [Bool.false_eq_true, if_false, Metrics.tick, Metrics.count_times, Metrics.isSome_times, hreg]
      cases d <;> cases n.isDir <;> simp [filteredMetric]
    · simp [hreg]
  have h1 : filteredMetric d ≠ .childFound := by cases d <;> simp [filteredMetric]
  have h2 : filteredMetric d ≠ .childFilteredOut := by cases d <;> simp [filteredMetric]
  unfold Setup.countF
  rw [if_pos hact]
  rcases S.filter.child with _ | g
  · exact hP
  · cases S.accepts n <;> simp only [if_true, Bool.false_eq_true, if_false]
    · exact hP
    · simp only [Metrics.count_times, Metrics.isSome_times, h1, h2, false_and, if_false]
      exact hP

theorem filterCounts_start (S : Setup) (f : Node → Bool) (hf : S.filter.primary = some (.node f)) (x : κ) (carried : Metrics) :
    FilterCounts (fun d => carried.count (filteredMetric d)) (S.world x carried) := by
  have hact : S.filter.active = true := by simp [FilterOpts.active, hf]
  have hdec : Role.clientFilter ∈ S.decorators := by
    simp [Setup.decorators, Setup.activeRoles, hact]
  have hm : ∀ d, S.metrics (filteredMetric d) = some 0 := by
    intro d
    have : ∀ m : Metrics, m .dirsFilteredOut = none → m .filesFilteredOut = none →
        (m.many [.dirsFilteredOut, .filesFilteredOut, .childFound, .childFilteredOut]) (filteredMetric d) = some 0 := by
      intro m h1 h2
      cases d <;> simp [Metrics.many, Metrics.single, filteredMetric, h1, h2]
    unfold Setup.metrics
    simp only [hdec, if_true]
    apply this
    · split <;> simp [Metrics.many, Metrics.single]
    · split <;> simp [Metrics.many, Metrics.single]
  have hcarry : ∀ d, (S.world x carried).metrics (filteredMetric d) =
      some (carried.count (filteredMetric d)) := by
    intro d
    simp only [Setup.world, Metrics.merge, hm d, Metrics.count]
    cases carried (filteredMetric d) <;> simp
  refine ⟨fun d => by rw [hcarry]; rfl, fun d => ?_, ?_⟩
  · show _ + ((S.world x carried).metrics (filteredMetric d)).getD 0 = _
    rw [hcarry]
    simp [World.called, World.reached, Setup.world, ofKind]
  · intro h1 hit h2 h; simp [Setup.world] at h

theorem filterCounts_step (S : Setup) (f : Node → Bool) (hf : S.filter.primary = some (.node f)) (C : Client κ) {base : Bool → Nat}
    {w w' : World κ} {n : Node} {rep : Reply} (hp : PlainStep S C w n w' rep) (h : FilterCounts base w) : FilterCounts base w' := by
  have hact : S.filter.active = true := by simp [FilterOpts.active, hf]
  have hacc : ∀ n, S.accepts n = f n := by intro n; simp [Setup.accepts, hf]
  have hre : w'.reached .clientFilter = w.reached .clientFilter ++ (if S.awake w n then [n] else []) := by
    unfold World.reached
    rw [hp.reached, List.map_append, hact]
    cases S.awake w n <;> simp
  have hmt := hp.metrics
  have hht := hp.hits
  cases haw : S.awake w n
  · rw [haw] at hre hmt hht
    simp only [Bool.false_eq_true, if_false, Bool.false_and, List.append_nil] at hre hmt hht
    constructor
    · rw [hmt]; exact h.reg
    · unfold World.called; rw [hmt, hht, hre]; exact h.now
    · rw [hht, hre]; exact h.seen
  · rw [haw] at hre hmt hht
    simp only [if_true, Bool.true_and, hacc] at hre hmt hht
    have hc := fun d => countF_filtered S f hf w.metrics n d h.reg
    have hkind : ∀ d, ofKind d [n] = if n.isDir = d then 1 else 0 := by
      intro d; simp only [ofKind, List.filter_cons, List.filter_nil]
      cases d <;> cases n.isDir <;> rfl
    cases hfn : f n
    · rw [hfn] at hmt hht
      simp only [Bool.false_eq_true, if_false, List.append_nil] at hmt hht
      constructor
      · intro d; rw [hmt]; exact (hc d).2
      · intro d
        have hcd := (hc d).1
        unfold World.called
        rw [hmt, hht, hre, hcd, ofKind_append, hkind]
        have := h.now d
        unfold World.called at this
        simp only [hfn, and_true]
        omega
      · intro h1 hit h2 he
        rw [hht] at he
        obtain ⟨r1, r2, e1, e2⟩ := h.seen h1 hit h2 he
        exact ⟨r1, r2 ++ [n], by rw [hre, e1]; simp, e2⟩
    · rw [hfn] at hmt hht
      simp only [if_true] at hmt hht
      have hne : ∀ d, filteredMetric d ≠ invokedMetric n.isDir := by
        intro d; cases d <;> cases n.isDir <;> simp [filteredMetric, invokedMetric]
      have hcount : ∀ d, w'.metrics.count (filteredMetric d) = w.metrics.count (filteredMetric d) := by
        intro d
        rw [hmt, Metrics.tick, Metrics.count_times, (hc d).1]
        simp [hne, hfn]
      have hnow : ∀ d, ofKind d (w.called ++ [n]) + w'.metrics.count (filteredMetric d) =
          base d + ofKind d (w.reached .clientFilter ++ [n]) := by
        intro d
        rw [hcount, ofKind_append, ofKind_append]
        have := h.now d
        omega
      constructor
      · intro d
        rw [hmt, Metrics.tick, Metrics.isSome_times]; exact (hc d).2
      · intro d
        have : w'.called = w.called ++ [n] := by unfold World.called; rw [hht]; simp
        rw [this, hre]
        exact hnow d
      · intro h1 hit h2 he
        rw [hht] at he
        rcases List.eq_nil_or_concat h2 with rfl | ⟨h2', y, rfl⟩
        · obtain ⟨e1, e2⟩ := List.append_inj' he rfl
          simp only [List.cons.injEq, and_true] at e2
          subst e1 e2
          refine ⟨w.reached .clientFilter, [], by rw [hre]; simp, fun d => ?_⟩
          have := hnow d
          simpa [World.called] using this
        · have e : h1 ++ hit :: (h2'.concat y) = (h1 ++ hit :: h2') ++ [y] := by simp
          rw [e] at he
          obtain ⟨r1, r2, e1, e2⟩ := h.seen h1 hit h2' (List.append_inj' he rfl).1
          exact ⟨r1, r2 ++ [n], by rw [hre, e1]; simp, e2⟩

/-- C22. With a node filter active (hibernation and a child filter possibly too): for files (`d = false`) and for
directories (`d = true`) separately, handler calls + filtered-out count = nodes that reached the filter (+ carried over
count), at the end of the session and as seen by every single handler call. -/
theorem C22_conservation (S : Setup) (ho : S.Ordinary) (hs : S.Sane) (f : Node → Bool)
    (hf : S.filter.primary = some (.node f)) (C : Client κ) (x : κ) (carried : Metrics) (target pre : Path) (fs : FS) :
    let w := (S.session C x carried target pre fs).2.ext
    (∀ d, ofKind d w.called + w.metrics.count (filteredMetric d) =
      carried.count (filteredMetric d) + ofKind d (w.reached .clientFilter)) ∧
    (∀ before hit after, w.hits = before ++ hit :: after → ∃ sofar later,
      w.reached .clientFilter = (sofar ++ [hit.parcel.node]) ++ later ∧ ∀ d,
      ofKind d ((before ++ [hit]).map (fun h => h.parcel.node)) + hit.seen.count (filteredMetric d) =
        carried.count (filteredMetric d) + ofKind d (sofar ++ [hit.parcel.node])) := by
  have hact : S.filter.active = true := by simp [FilterOpts.active, hf]
  have hacc : ∀ n, S.accepts n = f n := by intro n; simp [Setup.accepts, hf]
  have key := plain_session_inv ho hs C x carried target pre fs
    (Q := fun w _ => FilterCounts (fun d => carried.count (filteredMetric d)) w) ?_ ?_ ?_ ?_
  · exact ⟨key.now, key.seen⟩
  · exact filterCounts_start S f hf x carried
  · intro w l n h; exact h.same (by simp) (by simp) (by simp)
  · intro w l k sv h; exact h.same rfl rfl rfl
  · intro s n rep w' hI hn hp h
    exact filterCounts_step S f hf C hp h

/-- The nodes that reach the filter are the nodes navigated to (those of the window, under hibernation). -/
theorem C22_reach (S : Setup) (ho : S.Ordinary) (hs : S.Sane) (f : Node → Bool)
    (hf : S.filter.primary = some (.node f)) (C : Client κ) (x : κ) (carried : Metrics) (target pre : Path) (fs : FS) :
    (S.session C x carried target pre fs).2.ext.reached .clientFilter =
      window S.hiber (invoked (S.session C x carried target pre fs).2.log) := by
  rw [(plainInv_session S ho hs C x carried target pre fs).reached, hibRun_window, if_pos]
  simp [FilterOpts.active, hf]

/-- Not vacuous: hibernation and filter together: seven nodes reach the filter, two of them are rejected. -/
example :
    let S : Setup := { Demo.sleepy .universal with filter := { primary := some (.node Demo.noFB) } }
    let w := (S.session (Demo.client Demo.quiet) () (fun _ => none) [] [] Demo.fs).2.ext
    (w.reached .clientFilter).map (·.name) = ["c", "w", "a", "b", "z", "y"] ∧
    w.called.map (·.name) = ["c", "w", "a", "z", "y"] ∧
    w.metrics.count .dirsFilteredOut = 1 ∧ w.metrics.count .filesFilteredOut = 0 ∧ ofKind true w.called = 2 := by
  decide +kernel

end Traverse
