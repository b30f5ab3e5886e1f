import Verif.Proofs.Again2
import Verif.Proofs.Bridge
import Verif.Props.Complete
import Verif.Props.Api2
/-
C62: Navigate called again on the same navigator.
-/
namespace Traverse
variable {κ : Type}

/-- New navigators one after the other, one for each disk, each with the client as the one before has left it. -/
def newEach (session : Disk → κ → Report κ) : List Disk → κ → List (Report κ)
  | [], _ => []
  | d :: ds, x => session d x :: newEach session ds (session d x).client

/-- Two reports that differ in their metrics at most. -/
structure SameBut (r f : Report κ) : Prop where
  verdict : r.verdict = f.verdict
  client : r.client = f.client
  tape : r.tape = f.tape
  calls : r.hits.map (fun h => (h.parcel, h.reply)) = f.hits.map (fun h => (h.parcel, h.reply))
  complete : r.complete = f.complete

theorem newEach_sessions (session : Disk → κ → Report κ) : ∀ ds x, walkPrimeTimes.sessions session ds x = newEach session ds x := by
  intro ds
  induction ds with
  | nil => intro x; rfl
  | cons d ds ih => intro x; simp only [walkPrimeTimes.sessions, newEach, ih]

section
variable {S : Setup} {o : Options κ} {h : κ → Parcel → κ × Reply} {tree : Path}

/-- What earlier calls may have left: nothing but counts. -/
structure Left (S : Setup) (k : Kept κ) : Prop where
  depth : k.depth = 0
  steady : Steady (S.world k.world.client (fun _ => none)) k.world
  guard : ∃ fw, GuardOK S fw k.world.guard

theorem Left.start (x : κ) : Left S ⟨0, S.world x (fun _ => none), false⟩ :=
  ⟨rfl, .refl _, true, guard_ok S⟩

theorem Left.ahead {k : Kept κ} (hk : Left S k) : Ahead S k.world.metrics k.world.clean (S.world k.world.client (fun _ => none)) := by
  refine ⟨⟨k.world.guard, [], ?_⟩, hk.guard, true, guard_ok S⟩
  have hm : (S.world k.world.client (fun _ => none)).metrics.merge k.world.metrics = k.world.metrics := by
    funext j
    have h1 := hk.steady.known j
    simp only [Setup.world, merge_none] at h1 ⊢
    simp only [Metrics.merge]
    rcases setup_metrics_zero S j with h | h <;> rw [h] at h1 ⊢
    · simp at h1; simp [h1]
    · cases hj : k.world.metrics j with
      | none => rw [hj] at h1; cases h1
      | some b => simp
  have h1 := hk.steady.hib
  have h2 := hk.steady.muted
  rcases k with ⟨d, ⟨c, me, hb, gu, mu, ta, hi, st, sa⟩, cm⟩
  simp only [World.clean, World.ahead, Setup.world] at hm h1 h2 ⊢
  simp only [hm, h1, h2, List.map_nil]

theorem Steady.publish {w v : World κ} (h : Steady w v) (C : Client κ) (n) : Steady w (v.publish C n) :=
  ⟨by simpa using h.hib, by simpa using h.muted, fun j => by simpa using h.known j⟩

/-- One call from what earlier ones left, compared with a new navigator. -/
theorem turn_same (ho : S.Ordinary) (hh : S.hiber.active = false) (hC : (o.client h).Indifferent) (disk : Disk) {k : Kept κ} (hk : Left S k) :
    let t := navigateTurn S o h tree disk k
    let f := (Built.ready S o).navigate h disk tree k.world.client
    SameBut t.1 f ∧ (f.verdict ≠ .panic → t.1.metrics = f.metrics.merge k.world.metrics ∧ t.2.world.metrics = t.1.metrics) ∧
      Left S t.2 ∧ t.2.world.client = f.client ∧ (∀ j, (f.verdict ≠ .panic → (f.metrics j).isSome = (S.metrics j).isSome)) := by
  intro t f
  have h0 := hk.ahead.publish (o.client h) (.begin tree)
  obtain ⟨e1, e2⟩ := runTop_ahead ho o (o.client h) hC disk tree [] (k.world.metrics) (d := 0) h0
  have hcame := runTop_came ho hh o (o.client h) disk tree [] 0 (k.world.clean.publish (o.client h) (.begin tree))
    (by simpa [World.clean] using hk.guard)
  have hcame' := runTop_came ho hh o (o.client h) disk tree [] 0 ((S.world k.world.client (fun _ => none)).publish (o.client h) (.begin tree))
    ⟨true, by rw [publish_guard]; exact guard_ok S⟩
  obtain ⟨_, _, hd, -⟩ := top_leg S.nav (S.env (o.client h) tree []) o.fault tree.dropLast tree (statOf S.nav o disk tree)
    ⟨0, k.world.clean.publish (o.client h) (.begin tree), []⟩
  have hdep : (runTop S o (o.client h) disk tree [] ⟨0, k.world.clean.publish (o.client h) (.begin tree), []⟩).2.depth = 0 := hd
  simp only [t, f, navigateTurn, Built.navigate, hk.depth]
  revert e1 e2 hcame hcame' hdep
  generalize runTop S o (o.client h) disk tree [] ⟨0, k.world.clean.publish (o.client h) (.begin tree), []⟩ = q
  generalize runTop S o (o.client h) disk tree [] ⟨0, (S.world k.world.client (fun _ => none)).publish (o.client h) (.begin tree), []⟩ = q'
  rintro e1 e2 hcame hcame' hdep
  rcases q with ⟨f1, s⟩
  rcases q' with ⟨f2, u⟩
  simp only at e1 e2 hcame hcame' hdep ⊢
  subst e1
  have hst : ∀ c, Steady (S.world c (fun _ => none)) s.ext := by
    intro c
    have hp : Steady k.world.clean (k.world.clean.publish (o.client h) (.begin tree)) := (Steady.refl _).publish _ _
    have := hp.trans hcame.steady
    exact ⟨this.hib.trans hk.steady.hib, this.muted.trans hk.steady.muted, fun j => (this.known j).trans (hk.steady.known j)⟩
  have hst' : ∀ j, (u.ext.metrics j).isSome = (S.metrics j).isSome := by
    intro j
    have := ((Steady.refl (S.world k.world.client (fun _ => none))).publish (o.client h) (.begin tree)).trans hcame'.steady
    simpa [Setup.world, merge_none] using this.known j
  obtain ⟨⟨g, st, he⟩, hg, -⟩ := e2.ext
  cases f1 with
  | panic =>
    simp only [Kept.report]
    rw [he] at hst hg ⊢
    refine ⟨⟨rfl, rfl, rfl, ?_, rfl⟩, fun hne => absurd rfl hne, ⟨hdep, hst _, hg⟩, rfl, fun j hne => absurd rfl hne⟩
    simp [World.ahead, Hit.ahead, Function.comp_def]
  | done e =>
    simp only [Kept.report]
    have hpub : s.ext.publish (o.client h) .ended = (u.ext.publish (o.client h) .ended).ahead k.world.metrics g st := by
      rw [he, publish_ahead]
    have hst2 : ∀ c, Steady (S.world c (fun _ => none)) (s.ext.publish (o.client h) .ended) := fun c => (hst c).publish _ _
    have hg2 : ∃ fw, GuardOK S fw (s.ext.publish (o.client h) .ended).guard := by simpa using hg
    rw [hpub] at hst2 hg2 ⊢
    refine ⟨⟨rfl, rfl, rfl, ?_, rfl⟩, fun _ => ⟨rfl, trivial⟩, ⟨hdep, hst2 _, hg2⟩, rfl, fun j _ => ?_⟩
    · simp [World.ahead, Hit.ahead, Function.comp_def]
    · simpa using hst' j

theorem merge_count {a b : Metrics} {j : Metric} (h : a j = none → b j = none) : (a.merge b).count j = a.count j + b.count j := by
  simp only [Metrics.count, Metrics.merge]
  cases ha : a j with
  | none => simp [h ha]
  | some x => cases b j <;> simp

theorem turns_same (ho : S.Ordinary) (hh : S.hiber.active = false) (hC : (o.client h).Indifferent) : ∀ (disks : List Disk) (k : Kept κ),
    Left S k →
    let rs := turnsOf (navigateTurn S o h tree) disks k
    let fs := newEach (fun d y => (Built.ready S o).navigate h d tree y) disks k.world.client
    rs.length = fs.length ∧ ∀ i r f, rs[i]? = some r → fs[i]? = some f → SameBut r f ∧
      ((∀ g ∈ fs.take (i + 1), g.verdict ≠ .panic) → ∀ j, r.metrics.count j = k.world.metrics.count j +
        ((fs.take (i + 1)).map (fun g => g.metrics.count j)).sum) := by
  intro disks
  induction disks with
  | nil => intro k _; simp [turnsOf, newEach]
  | cons d ds ih =>
    intro k hk
    obtain ⟨h1, h2, h3, h4, h5⟩ := turn_same (tree := tree) ho hh hC d hk
    have hi := ih _ h3
    rw [h4] at hi
    simp only [turnsOf, newEach]
    refine ⟨by simp [hi.1], ?_⟩
    have hcount : ((Built.ready S o).navigate h d tree k.world.client).verdict ≠ .panic → ∀ j,
        (navigateTurn S o h tree d k).1.metrics.count j = ((Built.ready S o).navigate h d tree k.world.client).metrics.count j +
          k.world.metrics.count j := by
      intro hp j
      rw [(h2 hp).1, merge_count]
      intro hn
      have a1 := h5 j hp
      have a2 := hk.steady.known j
      rw [hn] at a1
      simp only [Setup.world, merge_none] at a2
      rw [← a1] at a2
      simpa using a2
    intro i r f hr hf
    cases i with
    | zero =>
      simp only [List.getElem?_cons_zero, Option.some.injEq] at hr hf
      subst hr hf
      refine ⟨h1, fun hp j => ?_⟩
      have := hcount (hp _ (by simp)) j
      simp only [Nat.zero_add, List.take_succ_cons, List.take_zero, List.map_cons, List.map_nil, List.sum_cons, List.sum_nil]
      omega
    | succ i =>
      simp only [List.getElem?_cons_succ] at hr hf
      obtain ⟨g1, g2⟩ := hi.2 i r f hr hf
      refine ⟨g1, fun hp j => ?_⟩
      simp only [List.take_succ_cons, List.mem_cons, forall_eq_or_imp] at hp
      have a1 := g2 hp.2 j
      have a2 := hcount hp.1 j
      rw [(h2 hp.1).2] at a1
      simp only [List.take_succ_cons, List.map_cons, List.sum_cons]
      omega

end

section
variable (P : Platform κ) (u : Using κ) (settings : List (Option (Setting κ))) (disks : List Disk) (x : κ)

/-- **C62** (partial: no hibernation; the metrics are not those of a new navigator) Navigate called once for each of `disks` on one prime
navigator, compared with new navigators of the same facade and options: every call has the same error, the same handler calls with the
same answers, the same notifications and leaves the client the same. The metrics of a call are the sums over all calls so far. The
panic handler must not look at the metrics it is given to save, as they differ. -/
theorem C62_again_partial (S : Setup) (o : Options κ) (hb : buildPrimary P (.using u) settings = .ready S o)
    (hnohib : S.hiber.active = false) (hpanic : ∀ k a m, o.defects.panic k { a with metrics := m } = o.defects.panic k a) :
    let rs := walkPrimeTimes P u settings disks x
    let fs := newEach (fun d y => walkPrime P (.using u) settings d y) disks x
    rs.length = disks.length ∧ fs.length = disks.length ∧ ∀ i r f, rs[i]? = some r → fs[i]? = some f → SameBut r f ∧
      ((∀ g ∈ fs.take (i + 1), g.verdict ≠ .panic) → ∀ j, r.metrics.count j = ((fs.take (i + 1)).map (fun g => g.metrics.count j)).sum) := by
  intro rs fs
  have hlen : ∀ (session : Disk → κ → Report κ) ds y, (newEach session ds y).length = ds.length := by
    intro session ds
    induction ds with
    | nil => intro y; rfl
    | cons d ds ih => intro y; simp [newEach, ih]
  have ho : S.Ordinary := .inl (primary_ready hb).1
  have e1 : rs = turnsOf (navigateTurn S o (u.handler.getD (fun k _ => (k, .ok none))) u.tree) disks ⟨0, S.world x (fun _ => none), false⟩ := by
    simp only [rs, walkPrimeTimes, hb]
  have e2 : fs = newEach (fun d y => (Built.ready S o).navigate (u.handler.getD (fun k _ => (k, .ok none))) d u.tree y) disks x := by
    simp only [fs, walkPrime, hb]
  have := turns_same (tree := u.tree) (h := u.handler.getD (fun k _ => (k, .ok none))) (o := o) ho hnohib hpanic disks
    ⟨0, S.world x (fun _ => none), false⟩ (Left.start x)
  rw [e1, e2]
  simp only at this ⊢
  refine ⟨this.1.trans (hlen _ _ _), hlen _ _ _, fun i r f hr hf => ?_⟩
  obtain ⟨g1, g2⟩ := this.2 i r f hr hf
  refine ⟨g1, fun hp j => ?_⟩
  have hz : (S.world x (fun _ => none)).metrics.count j = 0 := by
    simp only [Setup.world, merge_none, Metrics.count]
    rcases setup_metrics_zero S j with h | h <;> simp [h]
  have := g2 hp j
  rw [hz, Nat.zero_add] at this
  exact this

/-- **C62** A navigator that could not be built says the same every time. -/
theorem C62_unbuilt (hb : ∀ S o, buildPrimary P (.using u) settings ≠ .ready S o) :
    walkPrimeTimes P u settings disks x = newEach (fun d y => walkPrime P (.using u) settings d y) disks x := by
  unfold walkPrimeTimes
  split
  · rename_i S o h; exact absurd h (hb S o)
  · exact newEach_sessions _ _ _

/-- **C62, what is false of hibernation** A navigator that has gone to sleep in one call of Navigate stays asleep: no later call
calls the handler, whatever is on the disk. -/
theorem C62_asleep_for_good (S : Setup) (o : Options κ) (hb : buildPrimary P (.using u) settings = .ready S o)
    (hhib : S.hiber.active = true) :
    let rs := walkPrimeTimes P u settings disks x
    ∀ (i j : Nat) (r q : Report κ), rs[i]? = some r → rs[j]? = some q → i < j → Obs.note .sleep ∈ r.tape → q.hits = [] := by
  intro rs
  have ho : S.Ordinary := .inl (primary_ready hb).1
  have e1 : rs = turnsOf (navigateTurn S o (u.handler.getD (fun k _ => (k, .ok none))) u.tree) disks ⟨0, S.world x (fun _ => none), false⟩ := by
    simp only [rs, walkPrimeTimes, hb]
  rw [e1]
  generalize u.handler.getD (fun k _ => (k, .ok none)) = h
  -- one call
  have guards : ∀ d (k : Kept κ), (∃ fw, GuardOK S fw k.world.guard) → ∃ fw, GuardOK S fw (navigateTurn S o h u.tree d k).2.world.guard := by
    intro d k hk
    have hD := top_inv (dozed_preserved ho (o.client h) u.tree []) S.nav o.fault u.tree.dropLast u.tree (statOf S.nav o d u.tree)
      ⟨k.depth, k.world.clean.publish (o.client h) (.begin u.tree), []⟩
      ⟨Dozed.publish (by intro hm; simp [World.clean] at hm) _ _ (by simp), by simpa [World.clean] using hk⟩
      (fun p e => ⟨by
        have : Dozed (k.world.clean.publish (o.client h) (.begin u.tree)) := Dozed.publish (by intro hm; simp [World.clean] at hm) _ _ (by simp)
        exact this, by simpa [World.clean, Options.fault] using hk⟩)
    simp only [navigateTurn, runTop]
    revert hD
    rcases top S.nav (S.env (o.client h) u.tree []) o.fault u.tree.dropLast u.tree (statOf S.nav o d u.tree) _ with ⟨_ | _, s⟩
    · intro hD; simpa [Kept.report] using hD.2
    · intro hD; simpa [Kept.report] using hD.2
  have dozes : ∀ d (k : Kept κ), (∃ fw, GuardOK S fw k.world.guard) → Obs.note .sleep ∈ (navigateTurn S o h u.tree d k).1.tape →
      (navigateTurn S o h u.tree d k).2.world.hib = .retired := by
    intro d k hk
    have hD := top_inv (dozed_preserved ho (o.client h) u.tree []) S.nav o.fault u.tree.dropLast u.tree (statOf S.nav o d u.tree)
      ⟨k.depth, k.world.clean.publish (o.client h) (.begin u.tree), []⟩
      ⟨Dozed.publish (by intro hm; simp [World.clean] at hm) _ _ (by simp), by simpa [World.clean] using hk⟩
      (fun p e => ⟨by
        have : Dozed (k.world.clean.publish (o.client h) (.begin u.tree)) := Dozed.publish (by intro hm; simp [World.clean] at hm) _ _ (by simp)
        exact this, by simpa [World.clean, Options.fault] using hk⟩)
    simp only [navigateTurn, runTop]
    revert hD
    rcases top S.nav (S.env (o.client h) u.tree []) o.fault u.tree.dropLast u.tree (statOf S.nav o d u.tree) _ with ⟨_ | _, s⟩
    · intro hD
      have := Dozed.publish (n := .ended) hD.1 (o.client h) (by simp)
      simpa [Kept.report, Dozed] using this
    · intro hD
      simpa [Kept.report, Dozed] using hD.1
  have stays : ∀ d (k : Kept κ), (∃ fw, GuardOK S fw k.world.guard) → k.world.hib = .retired →
      (navigateTurn S o h u.tree d k).2.world.hib = .retired ∧ (navigateTurn S o h u.tree d k).1.hits = [] := by
    intro d k hk hr
    have hD := top_inv (retired_preserved hhib (o.client h) u.tree []) S.nav o.fault u.tree.dropLast u.tree (statOf S.nav o d u.tree)
      ⟨k.depth, k.world.clean.publish (o.client h) (.begin u.tree), []⟩
      ⟨by simpa [World.clean] using hr, by simpa [World.clean] using hk⟩
      (fun p e => ⟨by simpa [World.clean, Options.fault] using hr, by simpa [World.clean, Options.fault] using hk⟩)
    simp only [navigateTurn, runTop]
    revert hD
    rcases top S.nav (S.env (o.client h) u.tree []) o.fault u.tree.dropLast u.tree (statOf S.nav o d u.tree) _ with ⟨_ | _, s⟩
    · intro hD; simpa [Kept.report] using hD.1
    · intro hD; simpa [Kept.report] using hD.1
  -- all calls
  have retired : ∀ ds (k : Kept κ), (∃ fw, GuardOK S fw k.world.guard) → k.world.hib = .retired →
      ∀ (j : Nat) (q : Report κ), (turnsOf (navigateTurn S o h u.tree) ds k)[j]? = some q → q.hits = [] := by
    intro ds
    induction ds with
    | nil => intro k _ _ j q hq; simp [turnsOf] at hq
    | cons d ds ih =>
      intro k hk hr j q hq
      have := stays d k hk hr
      cases j with
      | zero => simp only [turnsOf, List.getElem?_cons_zero, Option.some.injEq] at hq; rw [← hq]; exact this.2
      | succ j => simp only [turnsOf, List.getElem?_cons_succ] at hq; exact ih _ (guards d k hk) this.1 j q hq
  have all : ∀ ds (k : Kept κ), (∃ fw, GuardOK S fw k.world.guard) → ∀ (i j : Nat) (r q : Report κ), (turnsOf (navigateTurn S o h u.tree) ds k)[i]? = some r →
      (turnsOf (navigateTurn S o h u.tree) ds k)[j]? = some q → i < j → Obs.note .sleep ∈ r.tape → q.hits = [] := by
    intro ds
    induction ds with
    | nil => intro k _ i j r q hr; simp [turnsOf] at hr
    | cons d ds ih =>
      intro k hk i j r q hr hq hij hs
      cases j with
      | zero => omega
      | succ j =>
        simp only [turnsOf, List.getElem?_cons_succ] at hq
        cases i with
        | zero =>
          simp only [turnsOf, List.getElem?_cons_zero, Option.some.injEq] at hr
          subst hr
          exact retired ds _ (guards d k hk) (dozes d k hk hs) j q hq
        | succ i =>
          simp only [turnsOf, List.getElem?_cons_succ] at hr
          exact ih _ (guards d k hk) i j r q hr hq (by omega) hs
  exact all disks _ ⟨true, guard_ok S⟩

/-- **C62, what is false of spawning** At most one call of Navigate on the navigator of a resume by spawning returns no error:
all later ones end in ErrDetectedSpawnStackOverflow, if not in another error or panic. -/
theorem C62_spawn_once (overflow : Err) (r : Relic κ) (files : String → Except Err Json) (hst : r.strategy = .spawn) (S : Setup)
    (o₀ o : Options κ) (a : Active) (h1 : resumePlatform P r settings (files r.from) = .ok (o₀, a))
    (h2 : buildRest P a.sub (some r.strategy) o₀.afterwards = .ready S o) :
    let rs := walkResumeTimes overflow P r settings files disks x
    ∀ (i j : Nat) (p q : Report κ), rs[i]? = some p → rs[j]? = some q → i < j → p.verdict = .done none → q.verdict ≠ .done none := by
  intro rs
  have e1 : rs = turnsOf (resumeTurn overflow S o (r.handler.getD (fun k _ => (k, .panic))) .spawn a) disks
      ⟨0, { S.world x (fun _ => none) with guard := S.arranged, muted := fun _ => false }, false⟩ := by
    simp only [rs, walkResumeTimes, h1, h2]; rw [hst]
  rw [e1]
  clear e1 rs
  generalize r.handler.getD (fun k _ => (k, .panic)) = h
  generalize (⟨0, { S.world x (fun _ => none) with guard := S.arranged, muted := fun _ => false }, false⟩ : Kept κ) = k₀
  have once : ∀ d (k : Kept κ), k.complete = true → (resumeTurn overflow S o h .spawn a d k).1.verdict ≠ .done none ∧
      (resumeTurn overflow S o h .spawn a d k).2.complete = true := by
    intro d k hk
    simp only [resumeTurn, hk, if_true]
    have hc := crown_complete S.nav (S.env (o.client h) a.tree a.currentPath) o.fault (statOf S.nav o d) d a.tree a.currentPath.reverse true
      ⟨k.depth + a.depth, { (k.world.clean.publish (o.client h) (.begin a.tree)) with
        metrics := (k.world.clean.publish (o.client h) (.begin a.tree)).metrics.merge a.metrics }, []⟩
    revert hc
    generalize crown S.nav _ _ _ _ _ _ _ _ = z
    rcases z with ⟨_ | _, c, s⟩ <;> cases c <;> simp [Kept.report]
  have done : ∀ d (k : Kept κ), (resumeTurn overflow S o h .spawn a d k).1.verdict = .done none →
      (resumeTurn overflow S o h .spawn a d k).2.complete = true := by
    intro d k hv
    cases hk : k.complete with
    | true => exact absurd hv (once d k hk).1
    | false =>
      revert hv
      simp only [resumeTurn, hk, Bool.false_eq_true, if_false]
      have hc := crown_complete S.nav (S.env (o.client h) a.tree a.currentPath) o.fault (statOf S.nav o d) d a.tree a.currentPath.reverse true
        ⟨k.depth + a.depth, { (k.world.clean.publish (o.client h) (.begin a.tree)) with
          metrics := (k.world.clean.publish (o.client h) (.begin a.tree)).metrics.merge a.metrics }, []⟩
      revert hc
      generalize crown S.nav _ _ _ _ _ _ _ _ = z
      rcases z with ⟨_ | _, c, s⟩ <;> cases c <;> simp [Kept.report]
  have never : ∀ ds (k : Kept κ), k.complete = true → ∀ (j : Nat) (q : Report κ),
      (turnsOf (resumeTurn overflow S o h .spawn a) ds k)[j]? = some q → q.verdict ≠ .done none := by
    intro ds
    induction ds with
    | nil => intro k _ j q hq; simp [turnsOf] at hq
    | cons d ds ih =>
      intro k hk j q hq
      cases j with
      | zero => simp only [turnsOf, List.getElem?_cons_zero, Option.some.injEq] at hq; rw [← hq]; exact (once d k hk).1
      | succ j => simp only [turnsOf, List.getElem?_cons_succ] at hq; exact ih _ (once d k hk).2 j q hq
  revert k₀
  induction disks with
  | nil => intro k₀ i j p q hp; simp [turnsOf] at hp
  | cons d ds ih =>
    intro k i j p q hp hq hij hv
    cases j with
    | zero => omega
    | succ j =>
      simp only [turnsOf, List.getElem?_cons_succ] at hq
      cases i with
      | zero =>
        simp only [turnsOf, List.getElem?_cons_zero, Option.some.injEq] at hp
        subst hp
        exact never ds _ (done d k hv) j q hq
      | succ i =>
        simp only [turnsOf, List.getElem?_cons_succ] at hp
        exact ih _ i j p q hp hq (by omega) hv

/-- The first call of Navigate is what a new navigator does (both kinds; the models of one call and of several agree). -/
theorem first_turn_prime (d : Disk) (ds : List Disk) :
    (walkPrimeTimes P u settings (d :: ds) x).head? = some (walkPrime P (.using u) settings d x) := by
  unfold walkPrimeTimes
  split
  · rename_i S o hb
    simp only [turnsOf, List.head?_cons, Option.some.injEq, walkPrime, hb, Built.navigate, navigateTurn]
    have e : (S.world x (fun _ => none)).clean = S.world x (fun _ => none) := rfl
    simp only [e]
    generalize runTop S o _ _ _ _ _ = q
    rcases q with ⟨_ | _, s⟩ <;> rfl
  · rfl

theorem first_turn_resume (overflow : Err) (r : Relic κ) (files : String → Except Err Json) (d : Disk) (ds : List Disk) :
    (walkResumeTimes overflow P r settings files (d :: ds) x).head? = some (walkResume P (.relic r) settings files d x) := by
  unfold walkResumeTimes
  split
  · rfl
  · rename_i o₀ a h1
    split
    · rename_i S o h2
      have hres := (rest_ready h2).1
      simp only [turnsOf, List.head?_cons, Option.some.injEq, walkResume, h1, h2, Built.resume]
      generalize r.handler.getD (fun k _ => (k, .panic)) = h
      generalize r.strategy = st at hres ⊢
      have hg : S.guard = match some st with
        | some .fastward | some .undefined => S.arranged.decorate .fastward
        | _ => S.arranged := by
        rw [← hres]; rfl
      cases st with
      | spawn =>
        have hw : ∀ C : Client κ, ({ (({ S.world x (fun _ => none) with guard := S.arranged, muted := fun _ => false } : World κ).clean.publish C
            (.begin a.tree)) with metrics := (({ S.world x (fun _ => none) with guard := S.arranged, muted := fun _ => false } : World κ).clean.publish
            C (.begin a.tree)).metrics.merge a.metrics } : World κ) =
            (S.world x (if Strategy.spawn = .spawn then a.metrics else fun _ => none)).publish C (.begin a.tree) := by
          intro C
          have hm : S.metrics.merge (fun _ => none) = S.metrics := merge_none _
          simp only [World.publish, World.clean, Setup.world, hres, if_true, hg, hm]
          simp
        simp only [resumeTurn, hw, resumeRun, Bool.false_eq_true, if_false, Int.zero_add]
        generalize crown S.nav _ _ _ _ _ _ _ _ = z
        rcases z with ⟨_ | _, c, s⟩ <;> rfl
      | fastward =>
        have hw : ∀ C : Client κ,
            let w := ({ ({ S.world x (fun _ => none) with guard := S.arranged, muted := fun _ => false } : World κ).clean with
              muted := fun _ => true } : World κ).publish C (.begin a.tree)
            ({ w with guard := w.guard.decorate .fastward } : World κ) =
            (S.world x (if Strategy.fastward = .spawn then a.metrics else fun _ => none)).publish C (.begin a.tree) := by
          intro C
          simp only [World.publish, World.clean, Setup.world, hres, if_true, hg]
          simp
        simp only at hw
        simp only [resumeTurn, hw, resumeRun]
        generalize runTop S o _ _ _ _ _ = z
        rcases z with ⟨_ | _, s⟩ <;> rfl
      | undefined =>
        have hw : ∀ C : Client κ,
            let w := ({ ({ S.world x (fun _ => none) with guard := S.arranged, muted := fun _ => false } : World κ).clean with
              muted := fun _ => true } : World κ).publish C (.begin a.tree)
            ({ w with guard := w.guard.decorate .fastward } : World κ) =
            (S.world x (if Strategy.undefined = .spawn then a.metrics else fun _ => none)).publish C (.begin a.tree) := by
          intro C
          simp only [World.publish, World.clean, Setup.world, hres, if_true, hg]
          simp
        simp only at hw
        simp only [resumeTurn, hw, resumeRun]
        generalize runTop S o _ _ _ _ _ = z
        rcases z with ⟨_ | _, s⟩ <;> rfl
    · rfl

end

/-- **C62, what is false** On the same directory twice: the second call's metrics are those of both; a navigator that wakes at "b" is
awake from the start the second time; one that sleeps at "b" calls nothing the second time; a resume by spawning ends its second call
in ErrDetectedSpawnStackOverflow (99), after the same calls, at depths that count the saved depth twice, and there is no result. -/
theorem C62_false_in_general :
    let P := sortPlatform
    let disk := diskOf [] Demo.fs
    let b : FilterDef := .plain { type := .regex, pattern := "b" }
    let twice (settings : List (Option (Setting Nat))) := walkPrimeTimes P (toyUsing .universal) settings [disk, disk] 0
    let new (settings : List (Option (Setting Nat))) := newEach (fun d y => walkPrime P (.using (toyUsing .universal)) settings d y) [disk, disk] 0
    let wake := settingsOf P [some (.filterWake (some b))]
    let sleep := settingsOf P [some (.filterSleep (some b))]
    let files := savedFile (defaultOptions P) (savedAt ["r"] ["r", "a"] .universal)
    let spawned := walkResumeTimes (.code 99) P (toyRelic .spawn) [] files [disk, disk] 0
    let spawn := newEach (fun d y => walkResume P (.relic (toyRelic .spawn)) [] files d y) [disk, disk] 0
    ((twice []).map (fun r => r.metrics.count .dirsInvoked) = [4, 8] ∧ (new []).map (fun r => r.metrics.count .dirsInvoked) = [4, 4]) ∧
    ((twice wake).map (fun r => r.nodes.length) = [8, 10] ∧ (new wake).map (fun r => r.nodes.length) = [8, 8]) ∧
    ((twice sleep).map (fun r => r.nodes.map (fun n => n.path)) = [[["r"], ["r", "a"]], []] ∧
      (new sleep).map (fun r => r.nodes.map (fun n => n.path)) = [[["r"], ["r", "a"]], [["r"], ["r", "a"]]]) ∧
    (spawned.map (fun r => r.verdict) = [.done none, .done (some (.code 99))] ∧ spawn.map (fun r => r.verdict) = [.done none, .done none] ∧
      spawned.map (fun r => r.nodes.map (fun n => n.path)) = spawn.map (fun r => r.nodes.map (fun n => n.path)) ∧
      spawned.map (fun r => r.nodes.map (fun n => n.depth)) ≠ spawn.map (fun r => r.nodes.map (fun n => n.depth)) ∧
      spawned.map (fun r => (r.metrics .dirsInvoked).isSome) = [true, false]) := by
  decide +kernel

/-- **C62, later calls of a spawning navigator** that do not arrive at the tree again say why: the directory is gone (2), or the
handler panics or fails (7). ErrDetectedSpawnStackOverflow (99) is not put in place of these. -/
theorem C62_spawn_later :
    let P := sortPlatform
    let disk := diskOf [] Demo.fs
    let gone := diskOf [] (.dir "q" none none [])
    let files := savedFile (defaultOptions P) (savedAt ["r"] ["r", "a"] .universal)
    let calls (r : Reply) : Relic Nat := { toyRelic .spawn with handler := some (fun k _ => (k + 1, if k < 12 then .ok none else r)) }
    let run (r : Reply) (disks : List Disk) := (walkResumeTimes (.code 99) P (calls r) [] files disks 0).map (fun r => r.verdict)
    run (.ok none) [disk, disk, gone, disk] = [.done none, .done (some (.code 99)), .done (some (.code 2)), .done (some (.code 99))] ∧
    run (.ok (some (.code 7))) [disk, disk, disk] = [.done none, .done (some (.code 7)), .done (some (.code 7))] ∧
    (run .panic [disk, disk]).length = 2 ∧ (run .panic [disk, disk])[1]? ≠ some (.done (some (.code 99))) := by
  decide +kernel

/-- Not vacuous: the hypotheses of `C62_again_partial` are those of an ordinary session, here on two different disks; the second call is a
full one. -/
example :
    let P := sortPlatform
    let disks := [diskOf [] Demo.fs, diskOf [] (.dir "r" none none [.file "q" none none])]
    let rs := walkPrimeTimes P (toyUsing .universal) [] disks 0
    (∃ S o, buildPrimary P (.using (toyUsing .universal)) [] = .ready S o ∧ S.hiber.active = false ∧
      ∀ k a m, o.defects.panic k { a with metrics := m } = o.defects.panic k a) ∧
    rs.map (fun r => r.nodes.length) = [10, 2] ∧ rs.map (fun r => r.metrics.count .filesInvoked) = [6, 7] ∧
    rs.map (fun r => r.verdict) = [.done none, .done none] := by
  intro P disks rs
  exact ⟨⟨_, _, rfl, rfl, fun _ _ _ => rfl⟩, by decide +kernel⟩

/-- Not vacuous: a navigator that sleeps at "b", of `C62_asleep_for_good`. -/
example :
    let P := sortPlatform
    let settings := settingsOf P [some (.filterSleep (some (.plain { type := .regex, pattern := "b" })))]
    let rs := walkPrimeTimes P (toyUsing .universal) settings [diskOf [] Demo.fs, diskOf [] Demo.fs] 0
    (∃ S o, buildPrimary P (.using (toyUsing .universal)) settings = .ready S o ∧ S.hiber.active = true) ∧
    rs.map (fun r => decide (Obs.note .sleep ∈ r.tape)) = [true, false] ∧ rs.map (fun r => r.hits.length) = [2, 0] := by
  intro P settings rs
  exact ⟨⟨_, _, rfl, rfl⟩, by decide +kernel⟩

/-- Not vacuous: the hypotheses of `C62_spawn_once`, and of `C62_unbuilt` (no subscription is a facade that cannot be built). -/
example :
    let P := sortPlatform
    let files := savedFile (defaultOptions P) (savedAt ["r"] ["r", "a"] .universal)
    (∃ S o₀ o a, resumePlatform P (toyRelic .spawn) [] (files (toyRelic .spawn).from) = .ok (o₀, a) ∧
      buildRest P a.sub (some .spawn) o₀.afterwards = .ready S o) ∧
    (∀ S o, buildPrimary P (.using (toyUsing .undefined)) [] ≠ .ready S o) := by
  intro P files
  refine ⟨⟨_, _, _, _, rfl, rfl⟩, fun S o h => ?_⟩
  cases h

end Traverse
