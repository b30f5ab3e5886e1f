import Verif.Proofs.Bridge
/-
Sessions without filters, hibernation and sampling: the chain is the handler (and, for DirectoriesWithFiles, the assignment of
the children), so the navigator might as well call the handler itself.
-/
namespace Traverse
variable {κ : Type}

/-- A session whose chain decides nothing. -/
structure Setup.Bare (S : Setup) : Prop where
  ordinary : S.Ordinary
  filter : S.filter = {}
  wakeAt : S.hiber.wakeAt = none
  sleepAt : S.hiber.sleepAt = none

/-- The environment in which the navigator calls the handler itself. -/
def bareEnv (S : Setup) (C : Client κ) (tree : Path) : Env (World κ) where
  descend w p d := { w with client := C.listen w.client (.descend p d), tape := w.tape ++ [.note (.descend p d)] }
  ascend w p d := { w with client := C.listen w.client (.ascend p d), tape := w.tape ++ [.note (.ascend p d)] }
  invoke w n :=
    let m := (S.countF w.metrics n).tick (invokedMetric n.isDir)
    let r := C.handler w.client ⟨n, S.childrenOf n⟩
    ({ w with client := r.1, metrics := m, hits := w.hits ++ [⟨⟨n, S.childrenOf n⟩, m, r.2⟩], tape := w.tape ++ [.call n] }, r.2)
  ask w n re := let r := C.skip w.client n re; ({ w with client := r.1 }, r.2)
  rescue w cur depth :=
    let a : Active :=
      { tree := tree, sub := S.nav.sub, hibernation := .retired, currentPath := cur.path, isDir := cur.isDir,
        depth := depth, metrics := w.metrics.persisted }
    let r := C.panics w.client a
    ({ w with client := r.1, saves := w.saves ++ [a] }, r.2)

/-- The two worlds agree on everything but guard, hibernation state and steps; and the chain is in order. -/
structure BareRel (S : Setup) (w v : World κ) : Prop where
  client : w.client = v.client
  metrics : w.metrics = v.metrics
  tape : w.tape = v.tape
  hits : w.hits = v.hits
  saves : w.saves = v.saves
  guard : ∃ fw, GuardOK S fw w.guard
  muted : ∀ e, w.muted e = false

theorem bare_hiber {S : Setup} (hb : S.Bare) : S.hiber.active = false := by
  simp [HiberOpts.active, hb.wakeAt, hb.sleepAt]

theorem bare_publish {S : Setup} {C : Client κ} {w v : World κ} (h : BareRel S w v) (n : Note) :
    BareRel S (w.publish C n) { v with client := C.listen v.client n, tape := v.tape ++ [.note n] } := by
  have hm := h.muted n.ev
  have e : w.publish C n = { w with client := C.listen w.client n, tape := w.tape ++ [.note n] } := by
    simp [World.publish, hm]
  rw [e]
  exact ⟨by simp [h.client], h.metrics, by simp [h.tape], h.hits, h.saves, h.guard, h.muted⟩

theorem bare_sim {S : Setup} (hb : S.Bare) (C : Client κ) (tree target : Path) :
    Sim (GoodNode S.nav) (S.env C tree target) (bareEnv S C tree) (BareRel S) where
  descend w v p d h := bare_publish h _
  ascend w v p d h := bare_publish h _
  invoke w v n hn h := by
    obtain ⟨fw, hg⟩ := h.guard
    have hh := bare_hiber hb
    have hsane : S.Sane := by
      refine ⟨⟨?_, ?_⟩, ?_⟩
      · intro n; rw [hb.filter]
      · rw [hh]; intro h; cases h
      · intro hc; rw [hb.filter] at hc; cases hc
    have hst : S.hibOf w.touched = .active := by simp [Setup.hibOf, hh]
    have hr : S.resume ≠ some .fastward := by rcases hb.ordinary with h | h <;> simp [h]
    have hbig := invoke_big (C := C) (target := target) hg n
    have hp := big_plain S C target fw w.touched n hr hn hsane (by rw [hst]; decide) ⟨h.muted _, h.muted _⟩
    obtain ⟨_, _, _, _, _, _, fw', _, h6⟩ := big_facts S C target fw w.touched n hg.touched
    rw [← hbig] at hp h6
    have hacc : S.accepts n = true := by simp [Setup.accepts, hb.filter]
    have haw : S.awake w.touched n = true := by
      unfold Setup.awake; rw [hst]; exact congrArg Prod.snd (hibStep_plain hb.sleepAt n)
    obtain ⟨hc1, hc2⟩ := (hp.client hh).1 hacc
    have hnote : hibNote S.hiber (S.hibOf w.touched) n = [] := by
      rw [hst]; simp [hibNote, HiberOpts.sleep, hb.sleepAt]
    have ht := hp.tape
    have hm := hp.metrics
    have hhi := hp.hits
    simp only [haw, hacc, Bool.and_self, if_true, hnote, List.append_nil] at ht hm hhi
    have hrep : ((S.env C tree target).invoke w n).2 = ((bareEnv S C tree).invoke v n).2 := by
      show (World.invoke S C target w n).2 = _
      rw [hc2]
      show (C.handler w.client _).2 = (C.handler v.client _).2
      rw [h.client]
    refine ⟨hrep, ?_⟩
    refine ⟨?_, ?_, ?_, ?_, ?_, ⟨fw', h6⟩, ?_⟩
    · show (World.invoke S C target w n).1.client = (C.handler v.client _).1
      rw [hc1, ← h.client]; rfl
    · show (World.invoke S C target w n).1.metrics = (S.countF v.metrics n).tick _
      rw [hm, ← h.metrics]; rfl
    · show (World.invoke S C target w n).1.tape = v.tape ++ _
      rw [ht, ← h.tape]; rfl
    · show (World.invoke S C target w n).1.hits = v.hits ++ [⟨_, (S.countF v.metrics n).tick _, ((bareEnv S C tree).invoke v n).2⟩]
      rw [hhi, ← h.hits, hm, ← hrep, ← h.metrics]; rfl
    · show (World.invoke S C target w n).1.saves = v.saves
      rw [hp.saves, ← h.saves]; rfl
    · intro e
      show (World.invoke S C target w n).1.muted e = false
      rw [hp.muted]; exact h.muted e
  ask w v n re _ h := by
    simp only [Setup.env, bareEnv, h.client]
    exact ⟨trivial, ⟨rfl, h.metrics, h.tape, h.hits, h.saves, h.guard, h.muted⟩⟩
  rescue w v n d h := by
    simp only [Setup.env, bareEnv, h.client, h.metrics]
    exact ⟨trivial, ⟨rfl, rfl, h.tape, h.hits, by simp [h.saves], h.guard, h.muted⟩⟩

/-- A session whose chain decides nothing is the navigator with the handler. -/
theorem bare_session {S : Setup} (hb : S.Bare) (C : Client κ) (x : κ) (carried : Metrics) (target pre : Path) (fs : FS) :
    let r := S.session C x carried target pre fs
    let b := walk S.nav (bareEnv S C (pre ++ [fs.name])) (S.world x carried) pre fs
    r.1 = b.1 ∧ r.2.log = b.2.log ∧ BareRel S r.2.ext b.2.ext := by
  have hm : ∀ e, (S.world x carried).muted e = false := by
    intro e; rcases hb.ordinary with h | h <;> simp [Setup.world, h]
  obtain ⟨h1, h2⟩ := (bare_sim hb C (pre ++ [fs.name]) target).traverse S.nav (fun ps path t d => mkNode_good S.nav ps path t d)
    (prep S.nav fs) [] pre (St.fresh (S.world x carried)) (St.fresh (S.world x carried))
    ⟨rfl, rfl, ⟨rfl, rfl, rfl, rfl, rfl, ⟨true, guard_ok S⟩, hm⟩⟩
  exact ⟨congrArg Out.final h1, h2.log, h2.ext⟩

/-! ### What the record says of a bare session -/

/-- Every recorded call is a handler call with that answer, and nothing else is. -/
def BareHits (s : St (World κ)) : Prop := s.ext.hits.map (fun h => (h.parcel.node, h.reply)) = calls s.log

theorem bareHits_preserved (S : Setup) (C : Client κ) (tree : Path) : Preserved (bareEnv S C tree) BareHits where
  descend s p d h := by unfold BareHits at *; simpa [St.doDescend, bareEnv, calls] using h
  ascend s p d h := by unfold BareHits at *; simpa [St.doAscend, bareEnv, calls] using h
  invoke s n h := by
    unfold BareHits at *
    have hc : calls (s.doInvoke (bareEnv S C tree) n).2.log = calls s.log ++ [(n, ((bareEnv S C tree).invoke s.ext n).2)] := by
      simp [St.doInvoke, calls]
    rw [hc, ← h]
    simp [St.doInvoke, bareEnv]
  ask s n re h := by unfold BareHits at *; simpa [St.doAsk, bareEnv, calls] using h
  rescue s n h := by unfold BareHits at *; simpa [St.doRescue, bareEnv, calls] using h

theorem bare_hits (S : Setup) (C : Client κ) (x : κ) (carried : Metrics) (tree pre : Path) (fs : FS) :
    BareHits (walk S.nav (bareEnv S C tree) (S.world x carried) pre fs).2 :=
  traverse_inv (bareHits_preserved S C tree) S.nav _ [] pre _ (by simp [BareHits, Setup.world, St.fresh, calls])

/-! ### From settings -/

theorem bare_built {P : Platform κ} {o : Options κ} (hp : o.Bare) (sub res) (hsub : sub ≠ .undefined) :
    buildRest P sub res o.afterwards = .ready (plainSetup (o.afterwards.nav sub) res
      { inclusiveWake := o.hibernate.inclusiveWake, inclusiveSleep := o.hibernate.inclusiveSleep }) o.afterwards := by
  have e1 : o.afterwards.filter = o.filter := rfl
  have e2 : o.afterwards.hibernate = o.hibernate := rfl
  have e3 : o.afterwards.sampling = o.sampling := rfl
  have hs : o.sampling.active = false := by simp [SamplingOptions.active, hp.sampling]
  have hr : registerFilter P.engine o.afterwards = .ok ({}, o.afterwards) := by
    simp [registerFilter, createPrimary, createChild, FilterOptions.nodeActive, e1, hp.custom, hp.node, hp.child, hp.sample]
  have hh : initHibernation P.engine o.afterwards = .ok { inclusiveWake := o.hibernate.inclusiveWake, inclusiveSleep := o.hibernate.inclusiveSleep } := by
    simp [initHibernation, makeTrigger, e2, hp.wakeAt, hp.sleepAt]
  simp only [buildRest, hsub, if_false, hr, hh, initSampling, e3, hs]
  simp only [Bool.false_eq_true, if_false, e3, hs]; rfl

/-- What is built of them. -/
def primedSetup (o : Options κ) (sub : Subscription) : Setup :=
  plainSetup (o.afterwards.nav sub) none { inclusiveWake := o.hibernate.inclusiveWake, inclusiveSleep := o.hibernate.inclusiveSleep }

theorem primed_started {P : Platform κ} {u settings disk o h pre fs} (hp : Primed P u settings disk o h pre fs) :
    Started P u settings disk (primedSetup o u.sub) o.afterwards h pre fs where
  built := by
    have hne : u.tree ≠ [] := by rw [hp.tree]; simp
    have hv : u.validate = none := by simp [Using.validate, hne, hp.sub, hp.handler]
    have hpp : primaryPlatform P (.using u) settings = (o, none) := by simp [primaryPlatform, hp.noOptions, hv, hp.options]
    simp only [buildPrimary, hpp]
    exact bare_built hp.bare u.sub none hp.sub
  handler := hp.handler
  tree := hp.tree
  disk := hp.disk
  status := hp.status

theorem primed_bare (o : Options κ) (sub) : (primedSetup o sub).Bare := ⟨Or.inl rfl, rfl, rfl, rfl⟩

/-- The whole session of such a facade: the navigator with the handler. -/
theorem primed_walk_at {P : Platform κ} {u settings disk o h pre fs} (hp : Primed P u settings disk o h pre fs) (x : κ) :
    let S := primedSetup o u.sub
    let b := walk (o.afterwards.nav u.sub) (bareEnv S (o.client h) (pre ++ [fs.name]))
      (S.world ((o.client h).listen x (.begin u.tree)) (fun _ => none)) pre fs
    let rep := walkPrime P (.using u) settings disk x
    rep.verdict = b.1.verdict ∧ rep.answers = calls b.2.log ∧ rep.nodes = invoked b.2.log ∧
    (rep.complete = true ↔ b.1 ≠ .panic) := by
  have hs := primed_started hp
  intro S b rep
  have h1 := started_session hs x
  obtain ⟨b1, b2, b3⟩ := bare_session (primed_bare o u.sub) (o.client h) ((o.client h).listen x (.begin u.tree)) (fun _ => none) [] pre fs
  have hb := bare_hits (primedSetup o u.sub) (o.client h) ((o.client h).listen x (.begin u.tree)) (fun _ => none) (pre ++ [fs.name]) pre fs
  have hC : o.afterwards.client h = o.client h := rfl
  rw [hC] at h1
  simp only at h1 b1 b2 b3
  have hans : rep.hits = b.2.ext.hits := by
    show (walkPrime P (.using u) settings disk x).hits = _
    rw [h1, show b.2.ext.hits = _ from b3.hits.symm]
    cases ((primedSetup o u.sub).session (o.client h) ((o.client h).listen x (.begin u.tree)) (fun _ => none) [] pre fs).1 <;> rfl
  have ha : rep.answers = calls b.2.log := by
    unfold Report.answers; rw [hans]; exact hb
  refine ⟨?_, ha, ?_, ?_⟩
  · show (walkPrime P (.using u) settings disk x).verdict = b.1.verdict
    rw [h1, show b.1 = _ from b1.symm]
    cases ((primedSetup o u.sub).session (o.client h) ((o.client h).listen x (.begin u.tree)) (fun _ => none) [] pre fs).1 <;> rfl
  · have := congrArg (List.map Prod.fst) ha
    simpa [Report.answers, Report.nodes, invoked, List.map_map, Function.comp_def] using this
  · show (walkPrime P (.using u) settings disk x).complete = true ↔ _
    rw [h1, show b.1 = _ from b1.symm]
    cases ((primedSetup o u.sub).session (o.client h) ((o.client h).listen x (.begin u.tree)) (fun _ => none) [] pre fs).1 <;> simp

/-- The same, the particular start state left open. -/
theorem primed_walk {P : Platform κ} {u settings disk o h pre fs} (hp : Primed P u settings disk o h pre fs) (x : κ) :
    ∃ y tree, let S := primedSetup o u.sub
    let b := walk (o.afterwards.nav u.sub) (bareEnv S (o.client h) tree) (S.world y (fun _ => none)) pre fs
    let rep := walkPrime P (.using u) settings disk x
    rep.verdict = b.1.verdict ∧ rep.answers = calls b.2.log ∧ rep.nodes = invoked b.2.log ∧
    (rep.complete = true ↔ b.1 ≠ .panic) := ⟨_, _, primed_walk_at hp x⟩

end Traverse
