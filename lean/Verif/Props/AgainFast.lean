import Verif.Proofs.AgainFast
import Verif.Props.Again
/-
C62: Navigate called again on the navigator of a resume by fastward.
-/
namespace Traverse
variable {κ : Type}

section
variable {S : Setup} {o : Options κ} {h : κ → Parcel → κ × Reply}

/-- What earlier calls may have left: counts, listeners muted or not, and the guardian with or without its fastward link. -/
structure LeftF (S : Setup) (k : Kept κ) : Prop where
  depth : k.depth = 0
  stead : Stead (S.world k.world.client (fun _ => none)) k.world
  guard : GuardSet S true (k.world.guard.decorate .fastward)

/-- The world a call starts with. -/
def Kept.ignited (k : Kept κ) : World κ :=
  { k.world.clean with muted := fun _ => true, guard := k.world.guard.decorate .fastward }

theorem LeftF.ahead (hres : S.resume = some .fastward) {k : Kept κ} (hk : LeftF S k) :
    AheadF S k.world.metrics k.ignited (S.world k.world.client (fun _ => none)) := by
  refine ⟨true, k.world.guard.decorate .fastward, [], ?_, hk.guard, guard_set S⟩
  have hm : (S.world k.world.client (fun _ => none)).metrics.merge k.world.metrics = k.world.metrics := by
    funext j
    have h1 := hk.stead.known j
    simp only [Setup.world, merge_none] at h1 ⊢
    simp only [Metrics.merge]
    rcases setup_metrics_zero S j with h | h <;> rw [h] at h1 ⊢
    · simp at h1; simp [h1]
    · cases hj : k.world.metrics j with
      | none => rw [hj] at h1; cases h1
      | some b => simp
  have h1 := hk.stead.hib
  rcases k with ⟨d, ⟨c, me, hb, gu, mu, ta, hi, st, sa⟩, cm⟩
  simp only [Kept.ignited, World.clean, World.ahead, Setup.world] at hm h1 ⊢
  simp [hm, h1, hres]

theorem Stead.publish {w v : World κ} (h : Stead w v) (C : Client κ) (n) : Stead w (v.publish C n) :=
  ⟨by simpa using h.hib, fun j => by simpa using h.known j⟩

/-- One call from what earlier ones left, compared with a new navigator. -/
theorem fast_same (overflow : Err) (hres : S.resume = some .fastward) (hh : S.hiber.active = false) (hC : (o.client h).Indifferent) (a : Active)
    (disk : Disk) {k : Kept κ} (hk : LeftF S k) :
    let t := resumeTurn overflow S o h .fastward a disk k
    let f := (Built.ready S o).resume .fastward h disk a k.world.client
    SameBut t.1 f ∧ (f.verdict ≠ .panic → t.1.metrics = f.metrics.merge k.world.metrics ∧ t.2.world.metrics = t.1.metrics) ∧
      LeftF S t.2 ∧ t.2.world.client = f.client ∧ (∀ j, (f.verdict ≠ .panic → (f.metrics j).isSome = (S.metrics j).isSome)) := by
  intro t f
  have h0 := hk.ahead hres
  obtain ⟨e1, e2⟩ := runTop_aheadF o (o.client h) hC disk a.tree a.currentPath (k.world.metrics) (d := 0) h0
  have hcame := runTop_cameF hh o (o.client h) disk a.tree a.currentPath 0 k.ignited ⟨true, hk.guard.ok⟩
  have hcame' := runTop_cameF hh o (o.client h) disk a.tree a.currentPath 0 (S.world k.world.client (fun _ => none)) ⟨true, guard_ok S⟩
  obtain ⟨_, _, hd, -⟩ := top_leg S.nav (S.env (o.client h) a.tree a.currentPath) o.fault a.tree.dropLast a.tree (statOf S.nav o disk a.tree)
    ⟨0, k.ignited, []⟩
  have hdep : (runTop S o (o.client h) disk a.tree a.currentPath ⟨0, k.ignited, []⟩).2.depth = 0 := hd
  have w1 : ({ { k.world.clean with muted := fun _ => true }.publish (o.client h) (.begin a.tree) with
      guard := ({ k.world.clean with muted := fun _ => true }.publish (o.client h) (.begin a.tree)).guard.decorate .fastward } : World κ) = k.ignited := by
    simp [World.publish, Kept.ignited, World.clean]
  have w2 : (S.world k.world.client (fun _ => none)).publish (o.client h) (.begin a.tree) = S.world k.world.client (fun _ => none) := by
    simp [World.publish, Setup.world, hres]
  have ns : ¬ (Strategy.fastward = .spawn) := by decide
  simp only [t, f, resumeTurn, Built.resume, resumeRun, hk.depth, w1, if_neg ns, w2]
  revert e1 e2 hcame hcame' hdep
  generalize runTop S o (o.client h) disk a.tree a.currentPath ⟨0, k.ignited, []⟩ = q
  generalize runTop S o (o.client h) disk a.tree a.currentPath ⟨0, S.world k.world.client (fun _ => none), []⟩ = q'
  rintro e1 e2 hcame hcame' hdep
  rcases q with ⟨f1, s⟩
  rcases q' with ⟨f2, u⟩
  simp only at e1 e2 hcame hcame' hdep ⊢
  subst e1
  have hst : ∀ c, Stead (S.world c (fun _ => none)) s.ext := by
    intro c
    have := hcame.stead
    exact ⟨this.hib.trans hk.stead.hib, fun j => (this.known j).trans (hk.stead.known j)⟩
  have hst' : ∀ j, (u.ext.metrics j).isSome = (S.metrics j).isSome := by
    intro j
    simpa [Setup.world, merge_none] using hcame'.stead.known j
  obtain ⟨fw, g, st, he, hg, -⟩ := e2.ext
  cases f1 with
  | panic =>
    simp only [Kept.report]
    rw [he] at hst ⊢
    refine ⟨⟨rfl, rfl, rfl, ?_, rfl⟩, fun hne => absurd rfl hne, ⟨hdep, hst _, hg.decorate hres⟩, rfl, fun j hne => absurd rfl hne⟩
    simp [World.ahead, Hit.ahead, Function.comp_def]
  | done e =>
    simp only [Kept.report]
    have hpub : s.ext.publish (o.client h) .ended = (u.ext.publish (o.client h) .ended).ahead k.world.metrics g st := by
      rw [he, publish_ahead]
    have hst2 : ∀ c, Stead (S.world c (fun _ => none)) (s.ext.publish (o.client h) .ended) := fun c => (hst c).publish _ _
    rw [hpub] at hst2 ⊢
    refine ⟨⟨rfl, rfl, rfl, ?_, rfl⟩, fun _ => ⟨rfl, trivial⟩, ⟨hdep, hst2 _, hg.decorate hres⟩, rfl, fun j _ => ?_⟩
    · simp [World.ahead, Hit.ahead, Function.comp_def]
    · simpa using hst' j

theorem fasts_same (overflow : Err) (hres : S.resume = some .fastward) (hh : S.hiber.active = false) (hC : (o.client h).Indifferent) (a : Active) :
    ∀ (disks : List Disk) (k : Kept κ), LeftF S k →
    let rs := turnsOf (resumeTurn overflow S o h .fastward a) disks k
    let fs := newEach (fun d y => (Built.ready S o).resume .fastward h d a y) disks k.world.client
    rs.length = fs.length ∧ ∀ i r f, rs[i]? = some r → fs[i]? = some f → SameBut r f ∧
      ((∀ g ∈ fs.take (i + 1), g.verdict ≠ .panic) → ∀ j, r.metrics.count j = k.world.metrics.count j +
        ((fs.take (i + 1)).map (fun g => g.metrics.count j)).sum) := by
  intro disks
  induction disks with
  | nil => intro k _; simp [turnsOf, newEach]
  | cons d ds ih =>
    intro k hk
    obtain ⟨h1, h2, h3, h4, h5⟩ := fast_same overflow hres hh hC a d hk
    have hi := ih _ h3
    rw [h4] at hi
    simp only [turnsOf, newEach]
    refine ⟨by simp [hi.1], ?_⟩
    have hcount : ((Built.ready S o).resume .fastward h d a k.world.client).verdict ≠ .panic → ∀ j,
        (resumeTurn overflow S o h .fastward a d k).1.metrics.count j =
          ((Built.ready S o).resume .fastward h d a k.world.client).metrics.count j + k.world.metrics.count j := by
      intro hp j
      rw [(h2 hp).1, merge_count]
      intro hn
      have a1 := h5 j hp
      have a2 := hk.stead.known j
      rw [hn] at a1
      simp only [Setup.world, merge_none] at a2
      rw [← a1] at a2
      simpa using a2
    intro i r f hr hf
    cases i with
    | zero =>
      simp only [List.getElem?_cons_zero, Option.some.injEq] at hr hf
      subst hr hf
      refine ⟨h1, fun hp j => ?_⟩
      have := hcount (hp _ (by simp)) j
      simp only [Nat.zero_add, List.take_succ_cons, List.take_zero, List.map_cons, List.map_nil, List.sum_cons, List.sum_nil]
      omega
    | succ i =>
      simp only [List.getElem?_cons_succ] at hr hf
      obtain ⟨g1, g2⟩ := hi.2 i r f hr hf
      refine ⟨g1, fun hp j => ?_⟩
      simp only [List.take_succ_cons, List.mem_cons, forall_eq_or_imp] at hp
      have a1 := g2 hp.2 j
      have a2 := hcount hp.1 j
      rw [(h2 hp.1).2] at a1
      simp only [List.take_succ_cons, List.map_cons, List.sum_cons]
      omega

end

section
variable (P : Platform κ) (settings : List (Option (Setting κ))) (disks : List Disk) (x : κ)

/-- **C62** (partial: no hibernation; the metrics are not those of a new navigator) Navigate called once for each of `disks` on the one
navigator of a resume by fastward, compared with new navigators that resume from the same file with the same options: every call is
quiet until it meets the saved path and has the same error, the same handler calls with the same answers, the same notifications and
leaves the client the same. The metrics of a call are the sums over all calls so far. The panic handler must not look at the metrics it
is given to save, as they differ. -/
theorem C62_fastward_partial (overflow : Err) (r : Relic κ) (files : String → Except Err Json) (hst : r.strategy = .fastward) (S : Setup)
    (o₀ o : Options κ) (a : Active) (h1 : resumePlatform P r settings (files r.from) = .ok (o₀, a))
    (h2 : buildRest P a.sub (some r.strategy) o₀.afterwards = .ready S o)
    (hnohib : S.hiber.active = false) (hpanic : ∀ k a m, o.defects.panic k { a with metrics := m } = o.defects.panic k a) :
    let rs := walkResumeTimes overflow P r settings files disks x
    let fs := newEach (fun d y => walkResume P (.relic r) settings files d y) disks x
    rs.length = disks.length ∧ fs.length = disks.length ∧ ∀ i q f, rs[i]? = some q → fs[i]? = some f → SameBut q f ∧
      ((∀ g ∈ fs.take (i + 1), g.verdict ≠ .panic) → ∀ j, q.metrics.count j = ((fs.take (i + 1)).map (fun g => g.metrics.count j)).sum) := by
  intro rs fs
  have hlen : ∀ (session : Disk → κ → Report κ) ds y, (newEach session ds y).length = ds.length := by
    intro session ds
    induction ds with
    | nil => intro y; rfl
    | cons d ds ih => intro y; simp [newEach, ih]
  have hres : S.resume = some .fastward := hst ▸ (rest_ready h2).1
  generalize hw : (r.handler.getD (fun k _ => (k, .panic))) = h
  have e1 : rs = turnsOf (resumeTurn overflow S o h .fastward a) disks
      ⟨0, { S.world x (fun _ => none) with guard := S.arranged, muted := fun _ => false }, false⟩ := by
    simp only [rs, walkResumeTimes, h1, h2, hw]; rw [hst]
  have e2 : fs = newEach (fun d y => (Built.ready S o).resume .fastward h d a y) disks x := by
    simp only [fs, walkResume, h1, h2, hw]; rw [hst]
  have hg : S.arranged.decorate .fastward = S.guard := by
    simp only [Setup.guard, hres]; rfl
  have hl : LeftF S (⟨0, { S.world x (fun _ => none) with guard := S.arranged, muted := fun _ => false }, false⟩ : Kept κ) :=
    ⟨rfl, ⟨rfl, fun _ => rfl⟩, by show GuardSet S true (S.arranged.decorate .fastward); rw [hg]; exact guard_set S⟩
  have := fasts_same (h := h) (o := o) overflow hres hnohib hpanic a disks _ hl
  rw [e1, e2]
  simp only at this ⊢
  refine ⟨this.1.trans (hlen _ _ _), hlen _ _ _, fun i r f hr hf => ?_⟩
  obtain ⟨g1, g2⟩ := this.2 i r f hr hf
  refine ⟨g1, fun hp j => ?_⟩
  have hz : (S.world x (fun _ => none)).metrics.count j = 0 := by
    simp only [Setup.world, merge_none, Metrics.count]
    rcases setup_metrics_zero S j with h | h <;> simp [h]
  have e3 := g2 hp j
  have e4 : ({ S.world x (fun _ => none) with guard := S.arranged, muted := fun _ => false } : World κ).metrics.count j = 0 := hz
  rw [e4, Nat.zero_add] at e3
  exact e3

end

/-- Not vacuous: a fastward resume from "r/a", three calls, on the second of which the saved path is not there: nothing is called. The
third call is as the first, and counts on. -/
example :
    let P := sortPlatform
    let disk := diskOf [] Demo.fs
    let gone := diskOf [] (.dir "r" none none [.file "q" none none])
    let files := savedFile (defaultOptions P) (savedAt ["r"] ["r", "a"] .universal)
    let rs := walkResumeTimes (.code 99) P (toyRelic .fastward) [] files [disk, gone, disk] 0
    (∃ S o₀ o a, resumePlatform P (toyRelic .fastward) [] (files (toyRelic .fastward).from) = .ok (o₀, a) ∧
      buildRest P a.sub (some .fastward) o₀.afterwards = .ready S o ∧ S.hiber.active = false ∧
      ∀ k a m, o.defects.panic k { a with metrics := m } = o.defects.panic k a) ∧
    rs.map (fun r => r.nodes.length) = [9, 0, 9] ∧ rs.map (fun r => r.metrics.count .filesInvoked) = [6, 6, 12] := by
  intro P disk gone files rs
  exact ⟨⟨_, _, _, _, rfl, rfl, rfl, fun _ _ _ => rfl⟩, by decide +kernel⟩

end Traverse
