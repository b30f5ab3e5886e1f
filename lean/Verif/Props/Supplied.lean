import Verif.Props.Resumed
import Verif.Props.Concurrent
/-
Sessions with options supplied ready made (C43), concurrent resumptions and sessions whose worker pool cannot be made (C47, C48).
-/
namespace Traverse
variable {κ : Type}

/-- Building changes nothing of the options but the hooks. -/
theorem rest_only_hooks {P : Platform κ} {sub res} {o : Options κ} {S o2} (hb : buildRest P sub res o = .ready S o2) :
    ∃ hooks, o2 = { o with hooks := hooks } := by
  have hprim : ∀ p o1, createPrimary P.engine o = .ok (p, o1) → ∃ hooks, o1 = { o with hooks := hooks } := by
    intro p o1 hc
    unfold createPrimary at hc
    repeat' split at hc
    all_goals first
      | (cases hc; done)
      | (simp only [Made.ok.injEq, Prod.mk.injEq] at hc; obtain ⟨-, rfl⟩ := hc; exact ⟨_, rfl⟩)
  have hreg : ∀ f o1, registerFilter P.engine o = .ok (f, o1) → ∃ hooks, o1 = { o with hooks := hooks } := by
    intro f o1 hc
    unfold registerFilter at hc
    split at hc
    · cases hc
    · cases hc
    · rename_i p o1' hp
      split at hc
      · cases hc
      · cases hc
      · simp only [Made.ok.injEq, Prod.mk.injEq] at hc
        obtain ⟨-, rfl⟩ := hc
        exact hprim _ _ hp
  have hsam : ∀ o1 : Options κ, ∃ hooks, initSampling o1 = { o1 with hooks := hooks } := by
    intro o1; unfold initSampling; split <;> exact ⟨_, rfl⟩
  unfold buildRest at hb
  split at hb
  · cases hb
  split at hb
  · cases hb
  · cases hb
  · rename_i f o1 hf
    split at hb
    · cases hb
    · cases hb
    · simp only [Built.ready.injEq] at hb
      obtain ⟨-, rfl⟩ := hb
      obtain ⟨h1, e1⟩ := hreg _ _ hf
      obtain ⟨h2, e2⟩ := hsam o1
      exact ⟨h2, by rw [e2, e1]⟩

/-- **C43** Options supplied in the facade (`Using.O`): the settings are not looked at, and the session is the one whose settings
yield these options, but without listeners for any event. -/
theorem C43_supplied (P : Platform κ) (u : Using κ) (o o₀ : Options κ) (ho : u.o = some o) (settings settings₀ : List (Option (Setting κ)))
    (hset : getOptions P settings₀ = (o₀, none)) (hsame : o₀ = { o with events := (defaultOptions P).events }) (disk : Disk) (x : κ) :
    walkPrime P (.using u) settings disk x = walkPrime P (.using { u with o := none }) settings₀ disk x ∧
    (∀ (e : LifeEv) (n : Note) (k : κ), ((defaultOptions P).events.get e).dispatch n k = k) := by
  subst hsame
  refine ⟨?_, fun e n k => ?_⟩
  · have hv : ({ u with o := none } : Using κ).validate = u.validate := rfl
    have hb : buildPrimary P (.using u) settings = buildPrimary P (.using { u with o := none }) settings₀ := by
      simp only [buildPrimary, primaryPlatform, ho, hset, hv]
      cases u.validate <;> rfl
    simp only [walkPrime, hb]
  · have := C43_listeners P [] e n k
    exact this

/-- **C47** What a concurrent resumption sends does not depend on the handler either, whatever the strategy: it sends what a walked
resumption whose handler always returns nil would call it for, and Navigate returns the same. -/
theorem C47_resume_not_cut_short (P : Platform κ) (r : Relic κ) (settings : List (Option (Setting κ))) (files : String → Except Err Json)
    (disk : Disk) (x : κ) (h : κ → Parcel → κ × Reply) (hh : r.handler = some h) :
    let l := runResume P (.relic r) settings files none disk x
    let w := walkResume P (.relic { r with handler := some (fun k _ => (k, .ok none)) }) settings files disk x
    l.handler = h ∧ l.sent = w.hits.map Hit.parcel ∧ l.report = w := by
  intro l w
  have hf : resumePlatform P { r with handler := some (fun k _ => (k, .ok none)) } settings (files r.from) = resumePlatform P r settings (files r.from) := rfl
  have hr : l.report = w ∧ l.handler = h := by
    simp only [l, w, runResume, walkResume, hf, hh, Option.getD_some]
    cases resumePlatform P r settings (files r.from) with
    | error e => exact ⟨rfl, rfl⟩
    | ok oa =>
      simp only [Built.relaunch]
      cases buildRest P oa.2.sub (some r.strategy) oa.1.afterwards <;> first | exact ⟨rfl, rfl⟩ | exact ⟨rfl, trivial⟩
  refine ⟨hr.2, ?_, hr.1⟩
  simp only [Launch.sent, hr.1]

/-- **C47** If the worker pool cannot be made, nothing is sent to it, and Navigate returns an error; primary sessions and resumptions. -/
theorem C47_no_pool (P : Platform κ) (e : Err) (disk : Disk) (x : κ) :
    (∀ (u : Using κ) settings, let l := runPrime P (.using u) settings (some e) disk x
      l.sent = [] ∧ (∀ v, l.report.verdict ≠ .done v) ∧ ∀ S o, buildPrimary P (.using u) settings = .ready S o → l.report.verdict = .unbuilt (.pool e)) ∧
    (∀ (r : Relic κ) settings files, let l := runResume P (.relic r) settings files (some e) disk x
      l.sent = [] ∧ (∀ v, l.report.verdict ≠ .done v) ∧
      ∀ S o h a, Resumed P r settings files S o h a → l.report.verdict = .unbuilt (.pool e)) := by
  refine ⟨fun u settings => ?_, fun r settings files => ?_⟩
  · simp only [runPrime, Built.launch, Launch.sent]
    cases buildPrimary P (.using u) settings with
    | stillborn => exact ⟨rfl, by simp [Built.navigate], fun _ _ h => by cases h⟩
    | crash => exact ⟨rfl, by simp [Built.navigate], fun _ _ h => by cases h⟩
    | hades => exact ⟨rfl, by simp [Built.navigate], fun _ _ h => by cases h⟩
    | ready S o => exact ⟨rfl, by simp, fun _ _ _ => rfl⟩
  · simp only [runResume, Launch.sent]
    cases hp : resumePlatform P r settings (files r.from) with
    | error e => exact ⟨rfl, by simp, by rintro S o h a ⟨-, o₀, h1, -⟩; rw [hp] at h1; cases h1⟩
    | ok oa =>
      obtain ⟨o₁, a₁⟩ := oa
      simp only [Built.relaunch]
      cases hb : buildRest P a₁.sub (some r.strategy) o₁.afterwards with
      | stillborn e' o' =>
        refine ⟨?_, ?_, ?_⟩
        · simp only [Built.resume]; split <;> rfl
        · simp only [Built.resume]; split <;> simp
        · rintro S o h a ⟨-, o₀, h1, h2⟩; rw [hp] at h1; cases h1; rw [hb] at h2; cases h2
      | crash => exact ⟨rfl, by simp [Built.resume], by rintro S o h a ⟨-, o₀, h1, h2⟩; rw [hp] at h1; cases h1; rw [hb] at h2; cases h2⟩
      | hades => exact ⟨rfl, by simp [Built.resume], by rintro S o h a ⟨-, o₀, h1, h2⟩; rw [hp] at h1; cases h1; rw [hb] at h2; cases h2⟩
      | ready S o => exact ⟨rfl, by simp, fun _ _ _ _ _ => rfl⟩

/-- **C27** Run without a worker pool: the session was built, the pool was not. Begin and End are published all the same, nothing in
between, and each listener hears them once; Navigate returns the pool's error. Fastward has muted its listeners and nothing is heard. -/
theorem C27_no_pool_partial (P : Platform κ) (e : Err) (disk : Disk) (x : κ) :
    (∀ (u : Using κ) settings S o, buildPrimary P (.using u) settings = .ready S o →
      let rep := (runPrime P (.using u) settings (some e) disk x).report
      rep.tape = [.note (.begin u.tree), .note .ended] ∧ rep.verdict = .unbuilt (.pool e) ∧ rep.hits = [] ∧
      rep.client = (o.events.get .ended).dispatch .ended ((o.events.get .begin).dispatch (.begin u.tree) x)) ∧
    (∀ (r : Relic κ) settings files S o h a, Resumed P r settings files S o h a →
      let rep := (runResume P (.relic r) settings files (some e) disk x).report
      rep.verdict = .unbuilt (.pool e) ∧ rep.hits = [] ∧
      (r.strategy = .spawn → rep.tape = [.note (.begin a.tree), .note .ended] ∧
        rep.client = (o.events.get .ended).dispatch .ended ((o.events.get .begin).dispatch (.begin a.tree) x)) ∧
      (r.strategy ≠ .spawn → rep.tape = [] ∧ rep.client = x)) := by
  refine ⟨fun u settings S o hb => ?_, ?_⟩
  · have hS := (buildPrimary_resume hb).1
    simp only [runPrime, Built.launch, hb, World.publish, Note.ev, world_muted, hS, Setup.world, Options.client]
    simp [Note.ev]
  · rintro r settings files S o h a ⟨-, o₀, h1, h2⟩
    have hS := (buildRest_resume h2).1
    simp only [runResume, h1, Built.relaunch, h2, World.publish, Note.ev, world_muted, hS, Setup.world, Options.client]
    cases r.strategy <;> simp [Note.ev]

/-- **C48** The pool of a concurrent resumption has the sizes of the options `o₀` (those loaded, with the settings given now applied
to them): the number of workers, and where no size is given for the queue, that many places. -/
theorem C48_resume_sizes (P : Platform κ) (r : Relic κ) (settings : List (Option (Setting κ))) (files : String → Except Err Json) (disk : Disk)
    (x : κ) (S : Setup) (o o₀ : Options κ) (h : κ → Parcel → κ × Reply) (a : Active) (pool : Option Err) (hr : Resumed P r settings files S o h a)
    (ho : resumePlatform P r settings (files r.from) = .ok (o₀, a)) :
    let size := (runResume P (.relic r) settings files pool disk x).size
    size.workers = o₀.concurrency.now ∧
    size.queue = if o₀.concurrency.inputSize = 0 then o₀.concurrency.now else o₀.concurrency.inputSize := by
  obtain ⟨-, o₁, h1, h2⟩ := hr
  rw [ho] at h1
  cases h1
  obtain ⟨hooks, e⟩ := rest_only_hooks h2
  simp only [runResume, ho, Built.relaunch, h2, Built.size, e]
  simp only [Options.afterwards]
  by_cases q1 : o₀.concurrency.inputSize = 0 <;> by_cases q2 : o₀.concurrency.output.on.isSome ∧ o₀.concurrency.output.size = 0 <;>
    simp [q1, q2]

/-- Not vacuous: options that carry a listener, supplied in the facade together with a setting: neither has an effect. -/
example :
    let P := sortPlatform
    let o := (getOptions P (settingsOf P [some (.depth 1), some (.on .begin (fun _ k => k + 100))])).1
    let u : Using Nat := { toyUsing .universal with o := some o }
    let settings := settingsOf P [some (.depth 2)]
    let settings₀ := settingsOf P [some (.depth 1)]
    let shown (u : Using Nat) (s) := let rep := walkPrime P (.using u) s (diskOf [] Demo.fs) 0
      (rep.client, rep.nodes.map (fun n => n.path))
    (∃ o₀, getOptions P settings₀ = (o₀, none) ∧ o₀ = { o with events := (defaultOptions P).events }) ∧
    shown u settings = (5, [["r"], ["r", "a"], ["r", "c"], ["r", "f"], ["r", "g"]]) ∧
    shown (toyUsing .universal) (settingsOf P [some (.depth 1), some (.on .begin (fun _ k => k + 100))]) =
      (105, [["r"], ["r", "a"], ["r", "c"], ["r", "f"], ["r", "g"]]) := by
  intro P o u settings settings₀ shown
  exact ⟨⟨_, rfl, rfl⟩, by decide +kernel, by decide +kernel⟩

/-- Not vacuous: no pool, with listeners that count: Begin and End once each, for the primary session and for spawn; none for fastward. -/
example :
    let P := sortPlatform
    let settings := settingsOf P [some (.on .begin (fun _ k => k + 100)), some (.on .ended (fun _ k => k + 1000))]
    let shown (rep : Report Nat) := (rep.client, rep.tape, rep.verdict)
    let resumed (st) := (runResume P (.relic (Demo.relic st fun _ => .ok none)) settings (Demo.saved ["r", "a", "b"] .universal) (some (.code 3))
      (diskOf [] Demo.fs) 0).report
    shown (runPrime P (.using (toyUsing .universal)) settings (some (.code 3)) (diskOf [] Demo.fs) 0).report =
      (1100, [.note (.begin ["r"]), .note .ended], .unbuilt (.pool (.code 3))) ∧
    shown (resumed .spawn) = (1100, [.note (.begin ["r"]), .note .ended], .unbuilt (.pool (.code 3))) ∧
    shown (resumed .fastward) = (0, [], .unbuilt (.pool (.code 3))) := by
  decide +kernel

/-- Not vacuous: a concurrent resumption of the demo session saved at /r/a/b whose handler refuses everything, by either strategy. -/
example :
    let sent (st) := (runResume sortPlatform (.relic (Demo.relic st fun _ => .ok (some (.code 7)))) [] (Demo.saved ["r", "a", "b"] .universal) none
      (diskOf [] Demo.fs) 0)
    (sent .spawn).sent.map (fun p => p.node.path) =
      [["r", "a", "b"], ["r", "a", "b", "y"], ["r", "a", "b", "z"], ["r", "a", "x"], ["r", "c"], ["r", "c", "w"], ["r", "f"], ["r", "g"]] ∧
    (sent .fastward).sent.map (fun p => p.node.path) =
      [["r", "a", "b"], ["r", "a", "b", "y"], ["r", "a", "b", "z"], ["r", "a", "x"], ["r", "c"], ["r", "c", "w"], ["r", "f"], ["r", "g"]] ∧
    (sent .spawn).report.verdict = .done none ∧ (sent .spawn).size = ⟨sortPlatform.cpus, sortPlatform.cpus⟩ ∧
    (Demo.relic .spawn fun _ => .ok (some (.code 7))).handler = some (Demo.byPath fun _ => .ok (some (.code 7))) := by
  refine ⟨by decide +kernel, by decide +kernel, by decide +kernel, by decide +kernel, rfl⟩

end Traverse
