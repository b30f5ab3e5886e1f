import Verif.Model.Concurrent
import Verif.Props.Fastward
/-
C47, C48: concurrent sessions. C49: composites.
-/
namespace Traverse
variable {κ : Type}

/-- What holds whatever the schedule. -/
structure Pool.Ok (size : PoolSize) (sent : List Parcel) (s : Pool κ) : Prop where
  all : (s.called ++ (s.given ++ (s.hand.toList ++ (s.queue ++ s.todo)))).Perm sent
  ended : (s.outs.map Prod.fst ++ s.busy).Perm s.called
  workers : s.given.length + s.busy.length ≤ size.workers
  queue : s.queue.length ≤ size.queue

theorem Pool.Ok.step {size : PoolSize} {sent h} {s t : Pool κ} (hs : s.Ok size sent) (st : Pool.Step size h s t) : t.Ok size sent := by
  obtain ⟨h1, h2, h3, h4⟩ := hs
  cases st with
  | send ht hq =>
    refine ⟨?_, h2, h3, by simp; omega⟩
    rw [ht] at h1; simpa using h1
  | handover ht hq hh =>
    refine ⟨?_, h2, h3, h4⟩
    rw [ht, hq, hh] at h1; simpa [hq] using h1
  | take hq hh =>
    refine ⟨?_, h2, h3, ?_⟩
    · rw [hq, hh] at h1; simpa using h1
    · rw [hq] at h4; simp at h4 ⊢; omega
  | give hh hw =>
    refine ⟨?_, h2, by simp; omega, h4⟩
    rw [hh] at h1; simpa using h1
  | @begin p l r hg =>
    refine ⟨?_, ?_, ?_, h4⟩
    · rw [hg] at h1
      refine (List.Perm.trans ?_ h1)
      simp only [List.append_assoc]
      apply List.Perm.append_left
      simp only [List.singleton_append, List.cons_append, List.nil_append]
      exact List.perm_middle.symm
    · rw [← List.append_assoc]
      exact h2.append_right _
    · rw [hg] at h3
      simp at h3 ⊢; omega
  | @finish p l r k e hb hr =>
    refine ⟨h1, ?_, ?_, h4⟩
    · rw [hb] at h2
      refine List.Perm.trans ?_ h2
      simp only [List.map_append, List.map_cons, List.map_nil, List.append_assoc]
      apply List.Perm.append_left
      simp only [List.singleton_append]
      exact List.perm_middle.symm
    · rw [hb] at h3
      simp at h3 ⊢; omega

theorem Pool.Ok.steps {size : PoolSize} {sent h n} {s t : Pool κ} (hs : s.Ok size sent) (st : Pool.Steps size h n s t) : t.Ok size sent := by
  induction st with
  | refl => exact hs
  | tail _ b ih => exact (ih hs).step b

theorem Launch.start_ok (l : Launch κ) (size : PoolSize) (k : κ) : (l.start k).Ok size l.sent :=
  ⟨by simp [Launch.start], by simp [Launch.start], by simp [Launch.start], by simp [Launch.start]⟩

/-- **C47** Along every schedule of navigator, channel reader and workers, whatever the sizes and the handler's answers: no node
is handed to the handler more often than it was sent, at most the configured number of calls are under way at a time, every call
that ended has exactly one output, and no other has. -/
theorem C47_at_most_once (l : Launch κ) (size : PoolSize) (k : κ) (n : Nat) (s : Pool κ)
    (hs : Pool.Steps size l.handler n (l.start k) s) :
    (∃ rest, (s.called ++ rest).Perm l.sent) ∧ s.busy.length ≤ size.workers ∧ (s.outs.map Prod.fst ++ s.busy).Perm s.called := by
  have := (l.start_ok size k).steps hs
  exact ⟨⟨_, this.all⟩, by have := this.workers; omega, this.ended⟩

/-- **C47** When no work remains, the handler has been called exactly once for everything that was sent, each call with one output. -/
theorem C47_exactly_once (l : Launch κ) (size : PoolSize) (k : κ) (n : Nat) (s : Pool κ)
    (hs : Pool.Steps size l.handler n (l.start k) s) (hd : s.Drained) :
    s.called.Perm l.sent ∧ (s.outs.map Prod.fst).Perm l.sent := by
  have := (l.start_ok size k).steps hs
  have h1 := this.all
  have h2 := this.ended
  rw [hd.todo, hd.queue, hd.hand, hd.given] at h1
  rw [hd.busy] at h2
  simp at h1 h2
  exact ⟨h1, h2.trans h1⟩

/-- **C47** What is sent does not depend on the handler: Run sends what a walk whose handler always returns nil would call it
for, with the same children, and returns the same error, the same metrics and the same notifications. Filters, hibernation and
sampling included. -/
theorem C47_not_cut_short (P : Platform κ) (u : Using κ) (settings : List (Option (Setting κ))) (disk : Disk) (x : κ)
    (h : κ → Parcel → κ × Reply) (hh : u.handler = some h) :
    let l := runPrime P (.using u) settings none disk x
    let w := walkPrime P (.using { u with handler := some (fun k _ => (k, .ok none)) }) settings disk x
    l.handler = h ∧ l.sent = w.hits.map Hit.parcel ∧ l.report = w := by
  intro l w
  have hb : buildPrimary P (.using u) settings = buildPrimary P (.using { u with handler := some (fun k _ => (k, .ok none)) }) settings := by
    have hv : ({ u with handler := some (fun k _ => (k, .ok none)) } : Using κ).validate = u.validate := by
      simp [Using.validate, hh]
    simp only [buildPrimary, primaryPlatform, hv]
  have hr : l.report = w := by
    simp only [l, w, runPrime, walkPrime, Built.launch, ← hb, Option.getD_some]
    cases buildPrimary P (.using u) settings <;> rfl
  refine ⟨by simp [l, runPrime, Built.launch, hh], ?_, hr⟩
  simp only [Launch.sent, hr]

/-- **C47** End to end, for a session without filter, hibernation, sampling or depth limit that delivers everything: whatever the
handler answers, along every schedule to the end of all work, the handler is called exactly once for every node of the tree, and
Navigate returns nil. -/
theorem C47_every_node_once (P : Platform κ) (key : String → String) (u : Using κ) (settings : List (Option (Setting κ)))
    (disk : Disk) (x : κ) (o : Options κ) (h : κ → Parcel → κ × Reply) (pre : Path) (fs : FS)
    (hu : u.o = none) (hsub : u.sub = .universal) (ho : getOptions P settings = (o, none)) (hp : o.Plain key)
    (hh : u.handler = some h) (htree : u.tree = pre ++ [fs.name]) (hdisk : disk u.tree = .ok fs) (hdistinct : fs.Distinct)
    (k : κ) (n : Nat) (s : Pool κ) :
    let l := runPrime P (.using u) settings none disk x
    l.report.verdict = .done none ∧ l.size.workers = o.concurrency.now ∧
    (Pool.Steps l.size h n (l.start k) s → s.busy.length ≤ o.concurrency.now ∧
      (s.Drained → (s.called.map (fun p => (p.node.path, p.node.isDir))).Perm (fs.nodes pre) ∧
        (s.called.map (fun p => p.node.path)).Nodup)) := by
  intro l
  obtain ⟨h1, h2, h3⟩ := C47_not_cut_short P u settings disk x h hh
  obtain ⟨g1, g2⟩ := plain_primary (u := { u with handler := some (fun k _ => (k, .ok none)) }) (x := x) hu ho hp (by simp [hsub]) rfl
    (fun _ _ => rfl) htree hdisk hdistinct
  obtain ⟨n1, n2, n3, n4⟩ := plain_nav hp u.sub
  have n5 := n4.trans hsub
  have n6 : (o.afterwards.nav u.sub).sub ≠ .directories := by rw [n5]; decide
  have n7 : (o.afterwards.nav u.sub).sub ≠ .directoriesWithFiles := by rw [n5]; decide
  have hsize : l.size.workers = o.concurrency.now := by
    have hv : u.validate = none := by
      have hne : u.tree ≠ [] := by rw [htree]; simp
      simp [Using.validate, hne, hsub, hh]
    have hpp : primaryPlatform P (.using u) settings = (o, none) := by simp [primaryPlatform, hu, hv, ho]
    have hb := plain_built (P := P) hp u.sub none (by simp [hsub])
    have hbp : buildPrimary P (.using u) settings = buildRest P u.sub none o.afterwards := by simp only [buildPrimary, hpp]
    simp only [l, runPrime, Built.launch]
    rw [hbp, hb]
    simp only [Built.size, Options.afterwards]
    by_cases q1 : o.concurrency.inputSize = 0 <;> by_cases q2 : o.concurrency.output.on.isSome ∧ o.concurrency.output.size = 0 <;>
      simp [q1, q2]
  refine ⟨by rw [h3]; exact g1, hsize, ?_⟩
  intro hs
  rw [← h1] at hs
  refine ⟨hsize ▸ (C47_at_most_once _ _ k n s hs).2.1, fun hd => ?_⟩
  have hperm := (C47_exactly_once _ _ k n s hs hd).1
  have hkeys : (l.sent.map (fun p => (p.node.path, p.node.isDir))).Perm (fs.nodes pre) := by
    simp only [l, h2, List.map_map]
    have := items_nodes (o.afterwards.nav u.sub) n3.permutes n2 n1 n6 n7 fs [] pre 0
    rw [items_list _ n1] at this
    have hf : ((prep (o.afterwards.nav u.sub) fs).list pre).filter (shows (o.afterwards.nav u.sub)) = (prep (o.afterwards.nav u.sub) fs).list pre := by
      rw [List.filter_eq_self]; intro a _; simp [shows, n5]
    simp only [hf] at g2
    rw [← g2] at this
    exact this
  have hk2 := (hperm.map (fun p : Parcel => (p.node.path, p.node.isDir))).trans hkeys
  refine ⟨hk2, ?_⟩
  have := items_nodes (o.afterwards.nav u.sub) n3.permutes n2 n1 n6 n7 fs [] pre 0
  rw [items_list _ n1] at this
  have hnd := list_nodup _ (prep_distinct _ n3.permutes (defaultRead_selects _ n2) fs hdistinct) pre
  have h5 := ((hk2.trans this.symm).map Prod.fst).nodup_iff.2 hnd
  rw [List.map_map] at h5
  exact h5

/-- **C48** While work remains somebody can take a step: with at least one worker, whatever the size of the queue, in every
state that can be reached, whatever a handler that does not panic answers. -/
theorem C48_progress (l : Launch κ) (size : PoolSize) (hw : 0 < size.workers) (hh : ∀ k p, (l.handler k p).2 ≠ .panic) (k : κ)
    (n : Nat) (s : Pool κ) (hs : Pool.Steps size l.handler n (l.start k) s) (hd : ¬ s.Drained) :
    ∃ t, Pool.Step size l.handler s t := by
  rcases hb : s.busy with _ | ⟨p, r⟩
  · rcases hg : s.given with _ | ⟨p, r⟩
    · rcases hn : s.hand with _ | p
      · rcases hq : s.queue with _ | ⟨p, q⟩
        · rcases ht : s.todo with _ | ⟨p, ps⟩
          · exact absurd ⟨ht, hq, hn, hg, hb⟩ hd
          · exact ⟨_, .handover ht hq hn⟩
        · exact ⟨_, .take hq hn⟩
      · exact ⟨_, .give hn (by rw [hg, hb]; exact hw)⟩
    · exact ⟨_, .begin (l := []) hg⟩
  · rcases hr : l.handler s.client p with ⟨k', _ | _⟩
    · exact ⟨_, .finish (l := []) hb hr⟩
    · exact absurd (by rw [hr]) (hh s.client p)

/-- How much is left to do. -/
def Pool.left (s : Pool κ) : Nat :=
  5 * s.todo.length + 4 * s.queue.length + 3 * s.hand.toList.length + 2 * s.given.length + s.busy.length

theorem Pool.Step.less {size : PoolSize} {h} {s t : Pool κ} (st : Pool.Step size h s t) : t.left + 1 ≤ s.left := by
  cases st with
  | send ht hq => simp [Pool.left, ht]; omega
  | handover ht hq hh => simp [Pool.left, ht, hq, hh]; omega
  | take hq hh => simp [Pool.left, hq, hh]; omega
  | give hh hw => simp [Pool.left, hh]; omega
  | «begin» hg => simp [Pool.left, hg]; omega
  | finish hb hr => simp [Pool.left, hb]; omega

theorem Pool.Steps.less {size : PoolSize} {h n} {s t : Pool κ} (st : Pool.Steps size h n s t) : t.left + n ≤ s.left := by
  induction st with
  | refl => simp
  | tail _ b ih => have := b.less; omega

/-- **C48** No schedule goes on for ever: five steps per node sent at most. So whoever runs, as long as somebody does, all work gets done: a schedule
that cannot be continued has drained the pool. -/
theorem C48_ends (l : Launch κ) (size : PoolSize) (hw : 0 < size.workers) (hh : ∀ k p, (l.handler k p).2 ≠ .panic) (k : κ)
    (n : Nat) (s : Pool κ) (hs : Pool.Steps size l.handler n (l.start k) s) :
    n ≤ 5 * l.sent.length ∧ ((¬ ∃ t, Pool.Step size l.handler s t) → s.Drained) := by
  constructor
  · have := hs.less
    simp [Pool.left, Launch.start] at this
    omega
  · intro h
    exact Classical.not_not.1 (fun hd => h (C48_progress l size hw hh k n s hs hd))

/-- **C48** From everywhere the end can be reached: some schedule drains the pool. -/
theorem C48_can_finish (l : Launch κ) (size : PoolSize) (hw : 0 < size.workers) (hh : ∀ k p, (l.handler k p).2 ≠ .panic) (k : κ)
    (n : Nat) (s : Pool κ) (hs : Pool.Steps size l.handler n (l.start k) s) :
    ∃ m t, Pool.Steps size l.handler m (l.start k) t ∧ t.Drained := by
  generalize hl : s.left = a
  induction a using Nat.strongRecOn generalizing n s with
  | ind a ih =>
    by_cases hd : s.Drained
    · exact ⟨n, s, hs, hd⟩
    · obtain ⟨t, ht⟩ := C48_progress l size hw hh k n s hs hd
      exact ih t.left (by have := ht.less; omega) (n + 1) t (hs.tail ht) rfl

/-- **C48** The sizes are those asked for: the pool of a session that could be built has the number of workers of its options,
and where no size is given for the queue, that many places. -/
theorem C48_sizes (b : Built κ) (S : Setup) (o : Options κ) (hb : b = .ready S o.afterwards) (h : κ → Parcel → κ × Reply) (pool : Option Err)
    (disk : Disk) (tree : Path) (x : κ) :
    (b.launch h pool disk tree x).size.workers = o.concurrency.now ∧
    (b.launch h pool disk tree x).size.queue = if o.concurrency.inputSize = 0 then o.concurrency.now else o.concurrency.inputSize := by
  subst hb
  simp only [Built.launch, Built.size, Options.afterwards]
  by_cases q1 : o.concurrency.inputSize = 0 <;> by_cases q2 : o.concurrency.output.on.isSome ∧ o.concurrency.output.size = 0 <;>
    simp [q1, q2]

/-- A handler that counts its calls and refuses every node, in the ways a sequential walk would take for the end. -/
def refuse (k : Nat) (p : Parcel) : Nat × Reply := (k + 1, .ok (some (if p.node.isDir then .skipAll else .code 7)))

/-- The demo session, run. -/
def Demo.launch : Launch Nat :=
  runPrime sortPlatform (.using { toyUsing .universal with handler := some refuse }) [] none (diskOf [] Demo.fs) 0

/-- Not vacuous: the demo session sends its ten nodes, though the handler refuses them all, to a pool of the default size. -/
example : Demo.launch.sent.map (fun p => p.node.path) =
    [["r"], ["r", "a"], ["r", "a", "b"], ["r", "a", "b", "y"], ["r", "a", "b", "z"], ["r", "a", "x"], ["r", "c"], ["r", "c", "w"],
      ["r", "f"], ["r", "g"]] ∧ Demo.launch.report.verdict = .done none ∧ Demo.launch.size = ⟨sortPlatform.cpus, sortPlatform.cpus⟩ := by
  decide +kernel

/-- All that C47_every_node_once assumes is so of it. -/
example : ∃ o, getOptions sortPlatform [] = (o, none) ∧ o.Plain sortPlatform.engine.lower ∧ Demo.fs.Distinct ∧
    (toyUsing .universal).tree = [] ++ [Demo.fs.name] ∧ diskOf [] Demo.fs (toyUsing .universal).tree = .ok Demo.fs :=
  ⟨defaultOptions sortPlatform, rfl, plain_default _ insertSort_sorts _ rfl, Demo.distinct, rfl, diskOf_holds Demo.distinct _ _ (FS.At.here [] Demo.fs)⟩

/-- With two workers and no buffer at all, or one worker and a buffer, there is a schedule to the end. -/
example : (∃ m t, Pool.Steps ⟨2, 0⟩ Demo.launch.handler m (Demo.launch.start 0) t ∧ t.Drained) ∧
    (∃ m t, Pool.Steps ⟨1, 3⟩ Demo.launch.handler m (Demo.launch.start 0) t ∧ t.Drained) :=
  ⟨C48_can_finish _ _ (by decide) (fun _ _ => by simp [Demo.launch, runPrime, Built.launch, refuse]) 0 0 _ .refl,
   C48_can_finish _ _ (by decide) (fun _ _ => by simp [Demo.launch, runPrime, Built.launch, refuse]) 0 0 _ .refl⟩

/-- Workers overtake each other: of two nodes sent, the second one's call may end first. -/
example (a b : Parcel) : ∃ t, Pool.Steps (κ := Nat) ⟨2, 0⟩ refuse 8 { todo := [a, b], client := 0 } t ∧ t.Drained ∧
    t.outs.map Prod.fst = [b, a] ∧ t.client = 2 := by
  refine ⟨_, ((((((((Pool.Steps.refl.tail (.handover rfl rfl rfl)).tail (.give rfl (by simp))).tail (.handover rfl rfl rfl)).tail
    (.give rfl (by simp))).tail (.begin (l := []) rfl)).tail (.begin (l := []) rfl)).tail
    (.finish (l := [a]) (r := []) rfl rfl)).tail (.finish (l := []) rfl rfl)), ⟨rfl, rfl, rfl, rfl, rfl⟩, rfl, rfl⟩

/-- Without workers nothing gets done: the channel's reader waits for ever (so at least one worker is needed). -/
example (a : Parcel) : Pool.Steps (κ := Nat) ⟨0, 0⟩ refuse 1 { todo := [a], client := 0 } { todo := [], hand := some a, client := 0 } ∧
    ¬ ∃ t, Pool.Step (κ := Nat) ⟨0, 0⟩ refuse { todo := [], hand := some a, client := 0 } t := by
  refine ⟨Pool.Steps.refl.tail (.handover rfl rfl rfl), ?_⟩
  rintro ⟨t, ht⟩
  cases ht with
  | send ht _ => exact absurd ht (by simp)
  | handover ht _ _ => exact absurd ht (by simp)
  | take hq _ => exact absurd hq (by simp)
  | give _ hw => exact absurd hw (by simp)
  | «begin» hg => exact absurd hg (by simp)
  | finish hb _ => exact absurd hb (by simp)

/-! ### Composites -/

/-- What the four scenarios are by definition: a walk or a run, of a prime or a resume extent, with the facade and the settings
given and, for a run, the wait group given. -/
def scenario (isWalk isPrime : Bool) (wg : Nat) : Scenario κ := fun f s =>
  { pace := if isWalk then .walk else .run wg, extent := if isPrime then .prime else .resume, facade := f, settings := s }

/-- **C49** Each composite is the scenario its flags say. -/
theorem C49_select (isWalk isPrime : Bool) (wg : Nat) :
    (hydra isWalk isPrime wg : Scenario κ) = scenario isWalk isPrime wg ∧
    (hare isPrime wg : Scenario κ) = scenario false isPrime wg ∧
    (tortoise isPrime : Scenario κ) = scenario true isPrime wg ∧
    (goldfish isWalk wg : Scenario κ) = scenario isWalk true wg := by
  cases isWalk <;> cases isPrime <;> exact ⟨rfl, rfl, rfl, rfl⟩

/-- **C49** So they agree where they overlap, wait group and all. -/
theorem C49_agree (isWalk isPrime : Bool) (wg : Nat) :
    (hare isPrime wg : Scenario κ) = hydra false isPrime wg ∧
    (tortoise isPrime : Scenario κ) = hydra true isPrime wg ∧
    (goldfish isWalk wg : Scenario κ) = hydra isWalk true wg ∧
    (hare true wg : Scenario κ) = goldfish false wg ∧
    (tortoise true : Scenario κ) = goldfish true wg := by
  have h := fun a b => C49_select (κ := κ) a b wg
  refine ⟨?_, ?_, ?_, ?_, ?_⟩
  · rw [(h isWalk isPrime).2.1, (h false isPrime).1]
  · rw [(h isWalk isPrime).2.2.1, (h true isPrime).1]
  · rw [(h isWalk isPrime).2.2.2, (h isWalk true).1]
  · rw [(h isWalk true).2.1, (h false isPrime).2.2.2]
  · rw [(h isWalk true).2.2.1, (h true isPrime).2.2.2]

/-- **C49** And navigating what they make is navigating the session one would have written out. -/
theorem C49_navigate (wg : Nat) (f : Facade κ) (s : List (Option (Setting κ))) (out : Outside κ) (x : κ) :
    (hydra true true wg f s).navigate out x = .walked (walkPrime out.platform f s out.disk x) ∧
    (hydra true false wg f s).navigate out x = .walked (walkResume out.platform f s out.files out.disk x) ∧
    (hydra false true wg f s).navigate out x = .ran (runPrime out.platform f s out.pool out.disk x) ∧
    (hydra false false wg f s).navigate out x = .ran (runResume out.platform f s out.files out.pool out.disk x) :=
  ⟨rfl, rfl, rfl, rfl⟩

end Traverse
