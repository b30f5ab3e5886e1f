import Verif.Proofs.Plan
import Verif.Props.ResumedNodes
import Verif.Props.LiveResumed
/-
C77: skip sentinels while resuming.
-/
namespace Traverse
variable {κ : Type}

theorem goLegs_sim {e1 : Env (World κ)} {e2 : Env (World κ)} {N : Node → Prop} {R} (h : Sim N e1 e2 R) (c : Nav)
    (hN : ∀ ps path t d, N (mkNode c ps path t d)) (f1 f2)
    (hf : ∀ a b p e, R a b → (f1 a p e).2 = (f2 b p e).2 ∧ R (f1 a p e).1 (f2 b p e).1) (stat : Path → RootStat)
    (legs : List (Path × String)) : ∀ s u, StSim R s u →
    (goLegs c e1 f1 stat legs s).1 = (goLegs c e2 f2 stat legs u).1 ∧ StSim R (goLegs c e1 f1 stat legs s).2 (goLegs c e2 f2 stat legs u).2 := by
  induction legs with
  | nil => intro s u hs; exact ⟨rfl, hs⟩
  | cons l ls ih =>
    intro s u hs
    have key : ∀ r, (top c e1 f1 l.1 (l.1 ++ [l.2]) r s).1 = (top c e2 f2 l.1 (l.1 ++ [l.2]) r u).1 ∧
        StSim R (top c e1 f1 l.1 (l.1 ++ [l.2]) r s).2 (top c e2 f2 l.1 (l.1 ++ [l.2]) r u).2 := by
      intro r
      cases r with
      | error e =>
        have := hf s.ext u.ext (l.1 ++ [l.2]) e hs.ext
        simp only [top]; exact ⟨by rw [this.1], hs.depth, hs.log, this.2⟩
      | found t =>
        have := h.traverse c hN t [] l.1 s u hs
        simp only [top]; exact ⟨by rw [this.1], this.2⟩
    obtain ⟨k1, k2⟩ := key (stat (l.1 ++ [l.2]))
    simp only [goLegs]
    rcases h1 : top c e1 f1 l.1 (l.1 ++ [l.2]) (stat (l.1 ++ [l.2])) s with ⟨f, s1⟩
    rcases h2 : top c e2 f2 l.1 (l.1 ++ [l.2]) (stat (l.1 ++ [l.2])) u with ⟨g, u1⟩
    rw [h1, h2] at k1 k2
    simp only at k1 k2
    subst k1
    rcases f with (_ | e) | _
    · exact ih s1 u1 k2
    · exact ⟨rfl, k2⟩
    · exact ⟨rfl, k2⟩

theorem goLegs_inv {env : Env (World κ)} {Inv : St (World κ) → Prop} (h : Preserved env Inv) {fault} (hf : FaultOK fault Inv) (c : Nav) (stat)
    (legs : List (Path × String)) : ∀ s, Inv s → Inv (goLegs c env fault stat legs s).2 := by
  induction legs with
  | nil => intro s hs; exact hs
  | cons l ls ih =>
    intro s hs
    have h1 := top_inv h c fault l.1 (l.1 ++ [l.2]) (stat (l.1 ++ [l.2])) s hs (fun p e => hf s p e hs)
    simp only [goLegs]
    rcases ht : top c env fault l.1 (l.1 ++ [l.2]) (stat (l.1 ++ [l.2])) s with ⟨(_ | e) | _, s1⟩ <;> rw [ht] at h1
    · exact ih s1 h1
    · exact h1
    · exact h1

/-- What is built of bare options. -/
def sproutSetup (o : Options κ) (sub : Subscription) : Setup :=
  plainSetup (o.afterwards.nav sub) (some .spawn) { inclusiveWake := o.hibernate.inclusiveWake, inclusiveSleep := o.hibernate.inclusiveSleep }

theorem sprout_bare (o : Options κ) (sub) : (sproutSetup o sub).Bare := ⟨Or.inr rfl, rfl, rfl, rfl⟩

/-- A spawn resume of bare options: navigations one after the other, the navigator calling the handler itself. -/
theorem sprout_run {P : Platform κ} {r : Relic κ} {settings : List (Option (Setting κ))} {files : String → Except Err Json} {disk : Disk}
    {o : Options κ} {h : κ → Parcel → κ × Reply} {a : Active}
    (hplat : resumePlatform P r settings (files r.from) = .ok (o, a)) (hst : r.strategy = .spawn) (hh : r.handler = some h)
    (hb : o.Bare) (hsub : a.sub ≠ .undefined) (x : κ) :
    ∃ w : World κ, let S := sproutSetup o a.sub
    let legs := legsOf S.nav disk a.tree a.currentPath.reverse true
    let g := goLegs S.nav (bareEnv S (o.client h) a.tree) o.fault (statOf S.nav o.afterwards disk) legs.1 ⟨a.depth, w, []⟩
    let rep := walkResume P (.relic r) settings files disk x
    rep.verdict = (afterLegs legs.2 g).1.verdict ∧ rep.answers = calls g.2.log ∧ rep.nodes = invoked g.2.log ∧
    (rep.verdict ≠ .panic → rep.complete = (afterLegs legs.2 g).2.1) := by
  have hbr := bare_built (P := P) hb a.sub (some .spawn) hsub
  have hres : Resumed P r settings files (sproutSetup o a.sub) o.afterwards h a := ⟨hh, o, hplat, by rw [hst]; exact hbr⟩
  obtain ⟨f1, f2, f3, -⟩ := resumed_facts (disk := disk) hres x
  rw [hst] at f1 f2 f3
  have hC : o.afterwards.client h = o.client h := rfl
  have hF : o.afterwards.fault = o.fault := rfl
  simp only [resumeRun, crown_legs, hC, hF] at f1 f2 f3
  generalize hw : startWorld (sproutSetup o a.sub) (o.client h) .spawn a x = w at f1 f2 f3
  refine ⟨w, ?_⟩
  generalize hl : legsOf (sproutSetup o a.sub).nav disk a.tree a.currentPath.reverse true = legs at f1 f2 f3
  have hmuted : ∀ e, w.muted e = false := by
    intro e
    rw [← hw]
    simp [startWorld, World.publish, Setup.world, sproutSetup, plainSetup]
  have hguard : ∃ fw, GuardOK (sproutSetup o a.sub) fw w.guard := by
    refine ⟨true, ?_⟩
    have hg := guard_ok (sproutSetup o a.sub)
    rw [← hw]
    simp only [startWorld, publish_guard]
    exact hg
  have hhits : w.hits = [] := by rw [← hw]; simp [startWorld, Setup.world]
  obtain ⟨s1, s2⟩ := goLegs_sim (bare_sim (sprout_bare o a.sub) (o.client h) a.tree a.currentPath) (sproutSetup o a.sub).nav
    (fun ps path t d => mkNode_good _ ps path t d) o.fault o.fault (by
      intro u v p e hr
      simp only [Options.fault, hr.client]
      exact ⟨trivial, ⟨rfl, hr.metrics, hr.tape, hr.hits, hr.saves, hr.guard, hr.muted⟩⟩)
    (statOf (sproutSetup o a.sub).nav o.afterwards disk) legs.1 ⟨a.depth, w, []⟩ ⟨a.depth, w, []⟩
    ⟨rfl, rfl, ⟨rfl, rfl, rfl, rfl, rfl, hguard, hmuted⟩⟩
  have hb' := goLegs_inv (bareHits_preserved (sproutSetup o a.sub) (o.client h) a.tree) (fault := o.fault) (fun _ _ _ h => h)
    (sproutSetup o a.sub).nav (statOf (sproutSetup o a.sub).nav o.afterwards disk) legs.1 ⟨a.depth, w, []⟩ (by simp [BareHits, hhits, calls])
  intro S legs' g rep
  have hg : goLegs (sproutSetup o a.sub).nav (bareEnv (sproutSetup o a.sub) (o.client h) a.tree) o.fault
    (statOf (sproutSetup o a.sub).nav o.afterwards disk) legs.1 ⟨a.depth, w, []⟩ = g := by rw [← hl]
  rw [hg] at s1 s2 hb'
  have hl' : legs' = legs := hl
  rw [hl']
  have e1 : ∀ (q : Final × St (World κ)), (afterLegs legs.2 q).2.2 = q.2 := by
    rintro ⟨(_ | e) | _, s⟩ <;> rfl
  have e2 : ∀ (q q' : Final × St (World κ)), q.1 = q'.1 → (afterLegs legs.2 q).1 = (afterLegs legs.2 q').1 ∧
      (afterLegs legs.2 q).2.1 = (afterLegs legs.2 q').2.1 := by
    rintro ⟨(_ | e) | _, s⟩ ⟨_, s'⟩ rfl <;> exact ⟨rfl, rfl⟩
  rw [e1] at f2
  obtain ⟨g1, g2⟩ := e2 _ _ s1
  have ha : rep.answers = calls g.2.log := by
    unfold Report.answers
    rw [show rep.hits = _ from f2, s2.ext.hits]
    exact hb'
  refine ⟨?_, ha, ?_, ?_⟩
  · rw [show rep.verdict = _ from f1, g1]
  · have := congrArg (List.map Prod.fst) ha
    simpa [Report.answers, Report.nodes, invoked, List.map_map, Function.comp_def] using this
  · intro hv
    rw [(f3 hv).2, g2]

/-- **C77** (spawn; partial) The handler `h` returns nil or a skip sentinel, `h₀` returns nil. Either every node for which `h` returned a
sentinel has a Parent, then the resume delivers what it delivers to `h₀` except what lies below those nodes, returns the same and says
the same of completeness. Or a sentinel was returned for a node without Parent, that is the saved path, or a later sibling of it or of a
directory above it: that sentinel is the last answer, Navigate returns it, the session says it is incomplete, and what was delivered is
an initial part of the above.

The full property claims the former in any case: that is false of the code (`C77_spawn_ends`). -/
theorem C77_spawn_partial (P : Platform κ) (r : Relic κ) (settings : List (Option (Setting κ))) (files : String → Except Err Json)
    (disk : Disk) (o : Options κ) (h h₀ : κ → Parcel → κ × Reply) (a : Active) (pre : Path) (fs : FS)
    (hplat : resumePlatform P r settings (files r.from) = .ok (o, a)) (hst : r.strategy = .spawn) (hh : r.handler = some h)
    (hb : o.Bare) (hu : o.Usual) (hfault : ∀ k k' p e, (o.defects.fault k p e).2 = (o.defects.fault k' p e).2)
    (hsub : a.sub ≠ .undefined) (hfiles : a.sub ≠ .files) (hin : Within disk o pre fs) (hdistinct : fs.Distinct)
    (hcb : ∀ k p, (h k p).2 = .ok none ∨ ∃ e, (h k p).2 = .ok (some e) ∧ e.isSentinel = true) (hnil : Handler.Nil h₀) (x x' : κ) :
    let rep := walkResume P (.relic r) settings files disk x
    let all := walkResume P (.relic { r with handler := some h₀ }) settings files disk x'
    let kept := all.nodes.filter (fun m => decide (∀ p ∈ rep.refused, ¬ Above p m.path))
    ((∀ n e, (n, .ok (some e)) ∈ rep.answers → n.parent ≠ none) ∧ rep.nodes = kept ∧ rep.verdict = all.verdict ∧
      (rep.verdict ≠ .panic → rep.complete = all.complete)) ∨
    (∃ before n e, rep.answers = before ++ [(n, .ok (some e))] ∧ n.parent = none ∧
      (∀ m e', (m, .ok (some e')) ∈ before → m.parent ≠ none) ∧
      rep.verdict = .done (some e) ∧ rep.complete = false ∧ rep.nodes <+: kept) := by
  intro rep all kept
  obtain ⟨w, h1, h2, h3, h4⟩ := sprout_run (disk := disk) hplat hst hh hb hsub x
  obtain ⟨w0, k1, k2, k3, k4⟩ := sprout_run (disk := disk) (r := { r with handler := some h₀ }) (h := h₀) hplat hst rfl hb hsub x'
  have hnav : (sproutSetup o a.sub).nav = o.afterwards.nav a.sub := rfl
  have hsort : SortPermutes (sproutSetup o a.sub).nav := usual_sort hu _
  have hread : ReadSelects (sproutSetup o a.sub).nav := defaultRead_selects _ (usual_read hu _)
  have hin' : Within disk o.afterwards pre fs := ⟨hin.part, hin.status⟩
  obtain ⟨v, v0, l1, l2, -, -, l5⟩ := legs_pruned (c := (sproutSetup o a.sub).nav) (env := bareEnv (sproutSetup o a.sub) (o.client h) a.tree)
    (env0 := bareEnv (sproutSetup o a.sub) (o.client h₀) a.tree) (fault := o.fault) (fault0 := o.fault)
    (stat := statOf (sproutSetup o a.sub).nav o.afterwards disk) hfiles
    (fun p t hs => by
      obtain ⟨f, g1, rfl, g3⟩ := honest_found hin'.honest hs
      exact ⟨prep_distinct _ hsort hread f ((hin.part _ _ g1).distinct hdistinct), g3⟩)
    (fun w n => hcb _ _) (usual_skip hu _ _).skipNone (bare_nil _ _ hnil) (usual_skip hu _ _) (fun _ _ _ _ => hfault _ _ _ _)
    (legsOf (sproutSetup o a.sub).nav disk a.tree a.currentPath.reverse true).1
    (legsOf_apart hsort (fun parent anchor incl names hf => by
      have := following_pairwise hsort hread (by
        simp only [Disk.list]
        cases hd : disk parent with
        | error e => simp
        | ok g =>
          have hg := (hin.part _ _ hd).distinct hdistinct
          cases g with
          | file => simp
          | dir => exact hg.1) hf (fun _ _ => True) (fun l => List.pairwise_of_forall (by simp))
      exact this.imp (fun h => h.1)) a.tree a.currentPath.reverse true).1
    ⟨a.depth, w, []⟩ ⟨a.depth, w0, []⟩ rfl (by simp) (by simp)
  simp only [List.nil_append] at l1 l2
  rw [l1] at h2 h3
  rw [l2] at k3
  have hr : rep.refused = refused v := (congrArg refusals h2).trans (refused_calls _).symm
  have hk : kept = (invoked v0).filter (outside (refused v)) := by
    show all.nodes.filter (fun m => decide (∀ p ∈ rep.refused, ¬ Above p m.path)) = _
    rw [hr, show all.nodes = _ from k3]; rfl
  rw [hk]
  rcases l5 with ⟨p1, p2, p3⟩ | ⟨before, n, e, q1, q2, q3, q4, q5⟩
  · left
    have ec : ∀ (le : Final × Bool) (q q' : Final × St (World κ)), q.1 = q'.1 → (afterLegs le q).1 = (afterLegs le q').1 ∧
        (afterLegs le q).2.1 = (afterLegs le q').2.1 := by
      rintro le ⟨(_ | e) | _, s⟩ ⟨_, s'⟩ rfl <;> exact ⟨rfl, rfl⟩
    obtain ⟨c1, c2⟩ := ec (legsOf (sproutSetup o a.sub).nav disk a.tree a.currentPath.reverse true).2 _ _ p3
    have hv : rep.verdict = all.verdict := by
      rw [show rep.verdict = _ from h1, show all.verdict = _ from k1, c1]
    refine ⟨?_, by rw [show rep.nodes = _ from h3]; exact p2, hv, ?_⟩
    · intro n e hm
      rw [show rep.answers = _ from h2] at hm
      exact p1 n e hm
    · intro hp
      rw [show rep.complete = _ from h4 hp, show all.complete = _ from k4 (by rw [← show rep.verdict = _ from hv]; exact hp), c2]
  · right
    have ec : ∀ (le : Final × Bool) (q : Final × St (World κ)), q.1 = .done (some e) → (afterLegs le q).1 = .done (some e) ∧
        (afterLegs le q).2.1 = false := by
      rintro le ⟨_, s⟩ rfl
      exact ⟨rfl, rfl⟩
    obtain ⟨c1, c2⟩ := ec (legsOf (sproutSetup o a.sub).nav disk a.tree a.currentPath.reverse true).2 _ q4
    have hv : rep.verdict = .done (some e) := by rw [show rep.verdict = _ from h1, c1]; rfl
    refine ⟨before, n, e, by rw [show rep.answers = _ from h2, q1], q2, q3, hv, ?_, by rw [show rep.nodes = _ from h3]; exact q5⟩
    rw [show rep.complete = _ from h4 (by rw [show (walkResume P (.relic r) settings files disk x).verdict = _ from hv]; simp), c2]

/-! ### Fastward -/

/-- What a dozing client has been shown: up to the target it answered nil. -/
def DozeLog (p : Path) (s : St (World (Doze κ))) : Prop :=
  ∃ A B, calls s.log = A ++ B ∧ (∀ k ∈ A, k.1.path ≠ p ∧ k.2 = .ok none) ∧ (s.ext.client.awake = false ↔ B = []) ∧
    (∀ k B', B = k :: B' → k.1.path = p)

theorem dozing_listen (C : Client κ) (p : Path) (k : Doze κ) (n : Note) : ((C.dozing p).listen k n).awake = k.awake := by
  simp only [Client.dozing]; split <;> rfl

theorem dozeLog_preserved (S : Setup) (C : Client κ) (p tree : Path) : Preserved (bareEnv S (C.dozing p) tree) (DozeLog p) where
  descend s q d h := by
    obtain ⟨A, B, h1, h2, h3, h4⟩ := h
    refine ⟨A, B, by simpa [St.doDescend, bareEnv, calls] using h1, h2, ?_, h4⟩
    simp only [St.doDescend, bareEnv, dozing_listen]; exact h3
  ascend s q d h := by
    obtain ⟨A, B, h1, h2, h3, h4⟩ := h
    refine ⟨A, B, by simpa [St.doAscend, bareEnv, calls] using h1, h2, ?_, h4⟩
    simp only [St.doAscend, bareEnv, dozing_listen]; exact h3
  invoke s n h := by
    obtain ⟨A, B, h1, h2, h3, h4⟩ := h
    have hc : calls (s.doInvoke (bareEnv S (C.dozing p) tree) n).2.log = calls s.log ++ [(n, ((bareEnv S (C.dozing p) tree).invoke s.ext n).2)] := by
      simp [St.doInvoke, calls]
    by_cases hw : (s.ext.client.awake || decide (n.path = p)) = true
    · refine ⟨A, B ++ [(n, ((bareEnv S (C.dozing p) tree).invoke s.ext n).2)], by rw [hc, h1, List.append_assoc], h2, ?_, ?_⟩
      · constructor
        · intro ha
          have hw' : s.ext.client.awake = true ∨ n.path = p := by simpa using hw
          simp [St.doInvoke, bareEnv, Client.dozing, hw'] at ha
        · simp
      · intro k B' he
        cases B with
        | nil =>
          cases he
          have := h3.2 rfl
          simpa [this] using hw
        | cons b bs =>
          simp only [List.cons_append, List.cons.injEq] at he
          rw [← he.1]; exact h4 b bs rfl
    · have ha : s.ext.client.awake = false := by simp at hw; exact hw.1
      have hn : n.path ≠ p := by simp at hw; exact hw.2
      have hB := h3.1 ha
      subst hB
      have hr : ((bareEnv S (C.dozing p) tree).invoke s.ext n).2 = .ok none := by
        simp [bareEnv, Client.dozing, ha, hn]
      refine ⟨A ++ [(n, .ok none)], [], by rw [hc, h1, hr, List.append_nil, List.append_nil], ?_, ?_, by simp⟩
      · intro k hk
        rcases List.mem_append.1 hk with hk | hk
        · exact h2 k hk
        · rw [List.mem_singleton.1 hk]; exact ⟨hn, rfl⟩
      · simp only [iff_true]
        cases hd : n.isDir <;> simp [St.doInvoke, bareEnv, Client.dozing, ha, hn, hd]
  ask s n re h := by
    obtain ⟨A, B, h1, h2, h3, h4⟩ := h
    exact ⟨A, B, by simpa [St.doAsk, bareEnv, calls] using h1, h2, by simpa [St.doAsk, bareEnv, Client.dozing] using h3, h4⟩
  rescue s n h := by
    obtain ⟨A, B, h1, h2, h3, h4⟩ := h
    exact ⟨A, B, by simpa [St.doRescue, bareEnv, calls] using h1, h2, by simpa [St.doRescue, bareEnv, Client.dozing] using h3, h4⟩

/-- What is built of bare options. -/
def dozeSetup (o : Options κ) (sub : Subscription) : Setup :=
  plainSetup (o.afterwards.nav sub) (some .fastward) { inclusiveWake := o.hibernate.inclusiveWake, inclusiveSleep := o.hibernate.inclusiveSleep }

/-- A fastward resume of bare options: one navigation, the navigator calling a handler that dozes. -/
theorem doze_walk {P : Platform κ} {r : Relic κ} {settings : List (Option (Setting κ))} {files : String → Except Err Json} {disk : Disk}
    {o : Options κ} {h : κ → Parcel → κ × Reply} {a : Active} {pre : Path} {fs : FS}
    (hplat : resumePlatform P r settings (files r.from) = .ok (o, a)) (hst : r.strategy = .fastward) (hh : r.handler = some h)
    (hb : o.Bare) (hsub : a.sub ≠ .undefined) (htree : a.tree = pre ++ [fs.name]) (hdisk : disk a.tree = .ok fs)
    (hstatus : ∀ r, o.hooks.queryStatus.invoke r = r) (hp : Resumable pre fs.name a.currentPath) (x : κ) :
    ∃ w : World (Doze κ), let S := (dozeSetup o a.sub).first
    let D := walk (o.afterwards.nav a.sub) (bareEnv S ((o.client h).dozing a.currentPath) a.tree) w pre fs
    let rep := walkResume P (.relic r) settings files disk x
    rep.verdict = D.1.verdict ∧ rep.answers = (calls D.2.log).dropWhile (fun k => !decide (k.1.path = a.currentPath)) ∧
    (rep.verdict ≠ .panic → rep.complete = true) ∧ DozeLog a.currentPath D.2 := by
  have hbr := bare_built (P := P) hb a.sub (some .fastward) hsub
  have hres : Resumed P r settings files (dozeSetup o a.sub) o.afterwards h a := ⟨hh, o, hplat, by rw [hst]; exact hbr⟩
  obtain ⟨f1, f2, f3, -⟩ := resumed_facts (disk := disk) hres x
  have hstat : statOf (dozeSetup o a.sub).nav o.afterwards disk a.tree = .found (prep (dozeSetup o a.sub).nav fs) := by
    have : o.afterwards.hooks.queryStatus.invoke (disk a.tree) = disk a.tree := hstatus _
    unfold statOf; rw [this, hdisk]
  have hpre : a.tree.dropLast = pre := by rw [htree, List.dropLast_concat]
  have hC : o.afterwards.client h = o.client h := rfl
  rw [hst] at f1 f2 f3
  simp only [resumeRun, runTop, hstat, top, hpre, hC] at f1 f2 f3
  have hns : ¬ (Strategy.fastward = Strategy.spawn) := by decide
  have hw : startWorld (dozeSetup o a.sub) (o.client h) .fastward a x =
      ((dozeSetup o a.sub).world x (fun _ => none)).publish (o.client h) (.begin a.tree) := by simp only [startWorld, if_neg hns]
  rw [hw] at f1 f2 f3
  obtain ⟨d1, d2⟩ := dozing_run (S := dozeSetup o a.sub) rfl (o.client h) a.tree a.currentPath [] (pre := pre)
    (t := prep (dozeSetup o a.sub).nav fs) (by rw [prep_name]; exact hp)
    (s := ⟨0, ((dozeSetup o a.sub).world x (fun _ => none)).publish (o.client h) (.begin a.tree), []⟩)
    (u := ⟨0, ((dozeSetup o a.sub).first.world ⟨x, false, 0, 0⟩ (fun _ => none)).publish ((o.client h).dozing a.currentPath) (.begin a.tree), []⟩)
    ⟨rfl, rfl, true, (dozing_start (S := dozeSetup o a.sub) rfl a.currentPath x (fun _ => none)).publish (o.client h) _⟩
  generalize traverse (dozeSetup o a.sub).nav ((dozeSetup o a.sub).env (o.client h) a.tree a.currentPath) [] pre (prep (dozeSetup o a.sub).nav fs)
    ⟨0, ((dozeSetup o a.sub).world x (fun _ => none)).publish (o.client h) (.begin a.tree), []⟩ = T at f1 f2 f3 d1 d2
  refine ⟨((dozeSetup o a.sub).first.world ⟨x, false, 0, 0⟩ (fun _ => none)).publish ((o.client h).dozing a.currentPath) (.begin a.tree), ?_⟩
  have hbare : (dozeSetup o a.sub).first.Bare := ⟨Or.inl rfl, rfl, rfl, rfl⟩
  have hstart : BareRel (dozeSetup o a.sub).first
      (((dozeSetup o a.sub).first.world ⟨x, false, 0, 0⟩ (fun _ => none)).publish ((o.client h).dozing a.currentPath) (.begin a.tree))
      (((dozeSetup o a.sub).first.world ⟨x, false, 0, 0⟩ (fun _ => none)).publish ((o.client h).dozing a.currentPath) (.begin a.tree)) := by
    refine ⟨rfl, rfl, rfl, rfl, rfl, ⟨true, ?_⟩, ?_⟩
    · rw [publish_guard]; exact guard_ok _
    · intro e; rw [publish_muted]; simp [Setup.world, Setup.first]
  obtain ⟨b1, b2⟩ := (bare_sim hbare ((o.client h).dozing a.currentPath) a.tree []).traverse (dozeSetup o a.sub).first.nav
    (fun ps path t d => mkNode_good _ ps path t d) (prep (dozeSetup o a.sub).nav fs) [] pre
    ⟨0, ((dozeSetup o a.sub).first.world ⟨x, false, 0, 0⟩ (fun _ => none)).publish ((o.client h).dozing a.currentPath) (.begin a.tree), []⟩
    ⟨0, ((dozeSetup o a.sub).first.world ⟨x, false, 0, 0⟩ (fun _ => none)).publish ((o.client h).dozing a.currentPath) (.begin a.tree), []⟩
    ⟨rfl, rfl, hstart⟩
  have hnav : (dozeSetup o a.sub).first.nav = (dozeSetup o a.sub).nav := rfl
  rw [hnav] at b1 b2
  rw [← d1] at b1
  have hB := traverse_inv (bareHits_preserved (dozeSetup o a.sub).first ((o.client h).dozing a.currentPath) a.tree) (dozeSetup o a.sub).nav
    (prep (dozeSetup o a.sub).nav fs) [] pre
    ⟨0, ((dozeSetup o a.sub).first.world ⟨x, false, 0, 0⟩ (fun _ => none)).publish ((o.client h).dozing a.currentPath) (.begin a.tree), []⟩
    (by unfold BareHits; rw [publish_hits]; rfl)
  have hD := traverse_inv (dozeLog_preserved (dozeSetup o a.sub).first (o.client h) a.currentPath a.tree) (dozeSetup o a.sub).nav
    (prep (dozeSetup o a.sub).nav fs) [] pre
    ⟨0, ((dozeSetup o a.sub).first.world ⟨x, false, 0, 0⟩ (fun _ => none)).publish ((o.client h).dozing a.currentPath) (.begin a.tree), []⟩
    ⟨[], [], rfl, by simp, by simp [World.publish, Setup.world, Setup.first, dozing_listen], by simp⟩
  intro S D rep
  have hDe : traverse (dozeSetup o a.sub).nav (bareEnv (dozeSetup o a.sub).first ((o.client h).dozing a.currentPath) a.tree) [] pre
      (prep (dozeSetup o a.sub).nav fs)
      ⟨0, ((dozeSetup o a.sub).first.world ⟨x, false, 0, 0⟩ (fun _ => none)).publish ((o.client h).dozing a.currentPath) (.begin a.tree), []⟩ =
      traverse (o.afterwards.nav a.sub) (bareEnv S ((o.client h).dozing a.currentPath) a.tree) [] pre (prep (o.afterwards.nav a.sub) fs) (St.fresh
        (((dozeSetup o a.sub).first.world ⟨x, false, 0, 0⟩ (fun _ => none)).publish ((o.client h).dozing a.currentPath) (.begin a.tree))) := rfl
  rw [hDe] at b1 b2 hB hD
  obtain ⟨fw, d3⟩ := d2.ext
  refine ⟨?_, ?_, fun hv => (f3 hv).2, hD⟩
  · rw [show rep.verdict = _ from f1, b1]; rfl
  · have hans : rep.answers = (T.2.ext.hits.map Hit.gist).map (fun g => (g.1.node, g.2)) := by
      unfold Report.answers
      rw [show rep.hits = _ from f2, List.map_map]; rfl
    rw [hans, d3.hits]
    have := map_dropWhile_key (fun g : Parcel × Reply => (g.1.node, g.2)) (fun k => !decide (k.1.path = a.currentPath))
    rw [this, b2.ext.hits, List.map_map]
    exact congrArg _ hB

theorem filter_dropWhile {α : Type} (F q : α → Bool) (L : List α) (h : ∀ m ∈ L, q m = false → F m = true) :
    (L.filter F).dropWhile q = (L.dropWhile q).filter F := by
  induction L with
  | nil => rfl
  | cons a as ih =>
    have ih' := ih (fun m hm => h m (by simp [hm]))
    by_cases hq : q a = true
    · by_cases hF : F a = true
      · simp [hq, hF, ih']
      · simp [hq, hF, ih']
    · have := h a (by simp) (by simpa using hq)
      simp [hq, this]

/-- **C77** (fastward) The handler `h` returns nil or a skip sentinel, `h₀` returns nil: the resume delivers what it delivers to `h₀` except
what lies below the nodes for which `h` returned a sentinel, returns nil, and says it is complete. The saved path lies below the tree. -/
theorem C77_fastward (P : Platform κ) (r : Relic κ) (settings : List (Option (Setting κ))) (files : String → Except Err Json)
    (disk : Disk) (o : Options κ) (h h₀ : κ → Parcel → κ × Reply) (a : Active) (pre : Path) (fs : FS)
    (hplat : resumePlatform P r settings (files r.from) = .ok (o, a)) (hst : r.strategy = .fastward) (hh : r.handler = some h)
    (hb : o.Bare) (hu : o.Usual) (hsub : a.sub ≠ .undefined) (hfiles : a.sub ≠ .files)
    (hstatus : ∀ r, o.hooks.queryStatus.invoke r = r) (htree : a.tree = pre ++ [fs.name]) (hdisk : disk a.tree = .ok fs)
    (hdistinct : fs.Distinct) (hp : Resumable pre fs.name a.currentPath)
    (hcb : ∀ k p, (h k p).2 = .ok none ∨ ∃ e, (h k p).2 = .ok (some e) ∧ e.isSentinel = true) (hnil : Handler.Nil h₀) (x x' : κ) :
    let rep := walkResume P (.relic r) settings files disk x
    let all := walkResume P (.relic { r with handler := some h₀ }) settings files disk x'
    rep.nodes = all.nodes.filter (fun m => decide (∀ p ∈ rep.refused, ¬ Above p m.path)) ∧
    rep.verdict = .done none ∧ rep.complete = true := by
  intro rep all
  obtain ⟨w, h1, h2, h3, h4⟩ := doze_walk hplat hst hh hb hsub htree hdisk hstatus hp x
  obtain ⟨w0, k1, k2, -, -⟩ := doze_walk (r := { r with handler := some h₀ }) (h := h₀) hplat hst rfl hb hsub htree hdisk hstatus hp x'
  have hsort : SortPermutes (o.afterwards.nav a.sub) := usual_sort hu _
  have hread : ReadSelects (o.afterwards.nav a.sub) := defaultRead_selects _ (usual_read hu _)
  obtain ⟨g1, g2⟩ := C08_skipDir_prunes (o.afterwards.nav a.sub) (bareEnv (dozeSetup o a.sub).first ((o.client h).dozing a.currentPath) a.tree) w
    (bareEnv (dozeSetup o a.sub).first ((o.client h₀).dozing a.currentPath) a.tree) w0 pre fs hfiles hsort hread hdistinct
    (by
      intro y n
      simp only [bareEnv, Client.dozing]
      split
      · exact hcb _ _
      · exact Or.inl rfl)
    (fun y n re => by simp only [bareEnv, Client.dozing]; exact congrArg Prod.fst (hu.skip _ _ _))
    (fun y n => dozing_nil (C := o.client h₀) hnil _ _ _)
    (fun y n re => by simp only [bareEnv, Client.dozing]; exact hu.skip _ _ _)
  obtain ⟨v, v1, -, v3⟩ := traverse_leg (o.afterwards.nav a.sub) (bareEnv (dozeSetup o a.sub).first ((o.client h).dozing a.currentPath) a.tree) pre
    (prep (o.afterwards.nav a.sub) fs) (St.fresh w)
  have hord : Orderly (invoked (walk (o.afterwards.nav a.sub) (bareEnv (dozeSetup o a.sub).first ((o.client h).dozing a.currentPath) a.tree) w pre fs).2.log) := by
    refine (items_orderly (o.afterwards.nav a.sub) _ (prep_distinct _ hsort hread fs hdistinct) pre 0).sublist ?_
    show (invoked (traverse _ _ [] pre (prep _ fs) (St.fresh w)).2.log).Sublist _
    rw [v1]
    exact v3.list
  generalize walk (o.afterwards.nav a.sub) (bareEnv (dozeSetup o a.sub).first ((o.client h).dozing a.currentPath) a.tree) w pre fs = D at *
  generalize walk (o.afterwards.nav a.sub) (bareEnv (dozeSetup o a.sub).first ((o.client h₀).dozing a.currentPath) a.tree) w0 pre fs = D0 at *
  obtain ⟨A, B, c1, c2, -, c4⟩ := h4
  have hB : rep.answers = B := by
    rw [show rep.answers = _ from h2, c1, dropWhile_append_all]
    · cases B with
      | nil => rfl
      | cons b bs => simp [c4 b bs rfl]
    · intro k hk; simp [(c2 k hk).1]
  have hA : ∀ n e, (n, .ok (some e)) ∈ calls D.2.log → (n, .ok (some e)) ∈ B := by
    intro n e hm
    rw [c1] at hm
    rcases List.mem_append.1 hm with hm | hm
    · have := (c2 _ hm).2
      cases this
    · exact hm
  have hr : ∀ q, q ∈ rep.refused ↔ q ∈ refused D.2.log := by
    intro q
    have e1 : refused D.2.log = refusals A ++ refusals B := by
      rw [refused_calls, c1, refusals, refusals, refusals, List.filterMap_append]
    have e2 : refusals A = [] := by
      simp only [refusals, List.filterMap_eq_nil_iff]
      intro k hk
      rw [(c2 k hk).2]
    have e3 : rep.refused = refusals B := congrArg refusals hB
    rw [e1, e2, e3, List.nil_append]
  have hF : (fun m : Node => decide (∀ p ∈ rep.refused, ¬ Above p m.path)) = fun m => decide (∀ p ∈ refused D.2.log, ¬ Above p m.path) := by
    funext m
    simp only [hr]
  have hn : rep.nodes = (invoked D.2.log).dropWhile (fun m => !decide (m.path = a.currentPath)) := by
    have e1 : rep.nodes = rep.answers.map Prod.fst := by simp [Report.nodes, Report.answers, List.map_map, Function.comp_def]
    rw [e1, show rep.answers = _ from h2, map_dropWhile_key Prod.fst (fun m : Node => !decide (m.path = a.currentPath))]; rfl
  have hn0 : all.nodes = (invoked D0.2.log).dropWhile (fun m => !decide (m.path = a.currentPath)) := by
    have e1 : all.nodes = all.answers.map Prod.fst := by simp [Report.nodes, Report.answers, List.map_map, Function.comp_def]
    rw [e1, show all.answers = _ from k2, map_dropWhile_key Prod.fst (fun m : Node => !decide (m.path = a.currentPath))]; rfl
  have hv : rep.verdict = .done none := by
    rw [show rep.verdict = _ from h1]
    rcases g2 with g2 | ⟨n, e, m1, m2, -⟩
    · rw [g2]; rfl
    · exfalso
      have hm := hA n e m1
      cases B with
      | nil => simp at hm
      | cons b bs =>
        have hb0 := c4 b bs rfl
        have hlist : invoked D.2.log = A.map Prod.fst ++ b.1 :: bs.map Prod.fst := by simp [invoked, c1]
        have hpw := hord.pairwise
        rw [hlist, List.pairwise_append, List.pairwise_cons] at hpw
        rcases List.mem_cons.1 hm with rfl | hm
        · exact hp.below.2 (by rw [← m2]; exact hb0)
        · refine hpw.2.1.1 n (List.mem_map_of_mem hm) ?_
          rw [m2, hb0]; exact hp.below.1
  refine ⟨?_, hv, h3 (by rw [show (walkResume P (.relic r) settings files disk x).verdict = _ from hv]; simp)⟩
  rw [hn, hn0, hF, g1]
  refine filter_dropWhile _ _ _ (fun m hm hq => ?_)
  have hmp : m.path = a.currentPath := by simpa using hq
  cases hBc : B with
  | nil =>
    have : refused D.2.log = [] := by
      have : rep.refused = [] := by rw [show rep.refused = _ from congrArg refusals hB, hBc]; rfl
      exact List.eq_nil_iff_forall_not_mem.2 (fun q hq' => by have := (hr q).2 hq'; simp_all)
    simp [this]
  | cons b bs =>
    have hbm : b.1 ∈ invoked D.2.log := by rw [invoked, c1, hBc]; simp
    rw [g1, List.mem_filter] at hbm
    have := hbm.2
    rw [c4 b bs hBc] at this
    rw [hmp]; exact this

/-- **C77, what is false of spawn**: resuming the demo session at /r/a/b. SkipDir for /r/c, a directory to be visited after /r/a, ends the
resume: Navigate returns SkipDir, the session says it is incomplete, and /r/f and /r/g are not delivered. So it is with SkipDir for the
saved path itself, and with SkipAll. A fastward resume skips what is below; and what spawn skips below the start of a navigation. -/
theorem C77_spawn_ends :
    let go (st : Strategy) (e : Err) (at_ : Path) := walkResume sortPlatform (.relic (Demo.relic st (Demo.at_ at_ (.ok (some e))))) []
      (Demo.saved ["r", "a"] .universal) (diskOf [] Demo.fs) 0
    let paths (st : Strategy) (e : Err) (at_ : Path) := (go st e at_).nodes.map (fun n => n.path)
    let whole : List Path := [["r", "a"], ["r", "a", "b"], ["r", "a", "b", "y"], ["r", "a", "b", "z"], ["r", "a", "x"], ["r", "c"],
      ["r", "c", "w"], ["r", "f"], ["r", "g"]]
    paths .spawn .skipDir [] = whole ∧ paths .fastward .skipDir [] = whole ∧
    (go .spawn .skipDir ["r", "c"]).verdict = .done (some .skipDir) ∧ (go .spawn .skipDir ["r", "c"]).complete = false ∧
    paths .spawn .skipDir ["r", "c"] = whole.take 6 ∧
    (go .spawn .skipDir ["r", "a"]).verdict = .done (some .skipDir) ∧ paths .spawn .skipDir ["r", "a"] = [["r", "a"]] ∧
    (go .spawn .skipAll ["r", "f"]).verdict = .done (some .skipAll) ∧ paths .spawn .skipAll ["r", "f"] = whole.dropLast ∧
    (∀ st ∈ [Strategy.spawn, .fastward], (go st .skipDir ["r", "a", "b"]).verdict = .done none ∧ (go st .skipDir ["r", "a", "b"]).complete = true ∧
      paths st .skipDir ["r", "a", "b"] = [["r", "a"], ["r", "a", "b"], ["r", "a", "x"], ["r", "c"], ["r", "c", "w"], ["r", "f"], ["r", "g"]]) ∧
    (go .fastward .skipDir ["r", "c"]).verdict = .done none ∧ (go .fastward .skipDir ["r", "c"]).complete = true ∧
    paths .fastward .skipDir ["r", "c"] = whole.filter (fun p => p ≠ ["r", "c", "w"]) := by
  decide +kernel

/-- Not vacuous: everything assumed is so of the demo sessions above, for any path and sentinel, and of a quiet handler. -/
example (st : Strategy) (e : Err) (he : e.isSentinel = true) (at_ : Path) (sub : Subscription) (hsub : sub ≠ .undefined) :
    let P := sortPlatform
    let r := Demo.relic st (Demo.at_ at_ (.ok (some e)))
    let files := Demo.saved ["r", "a"] sub
    let a := (savedAt ["r"] ["r", "a"] sub).active
    let h := Demo.byPath (Demo.at_ at_ (.ok (some e)))
    ∃ o, resumePlatform P r [] (files r.from) = .ok (o, a) ∧ r.handler = some h ∧ o.Bare ∧ o.Usual ∧ a.sub ≠ .undefined ∧
      (∀ k k' p e, (o.defects.fault k p e).2 = (o.defects.fault k' p e).2) ∧ Within (diskOf [] Demo.fs) o [] Demo.fs ∧
      (∀ r, o.hooks.queryStatus.invoke r = r) ∧ a.tree = [] ++ [Demo.fs.name] ∧ diskOf [] Demo.fs a.tree = .ok Demo.fs ∧
      Demo.fs.Distinct ∧ Resumable [] Demo.fs.name a.currentPath ∧
      (∀ k p, (h k p).2 = .ok none ∨ ∃ e, (h k p).2 = .ok (some e) ∧ e.isSentinel = true) ∧ Handler.Nil (Demo.byPath Demo.quiet) := by
  intro P r files a h
  obtain ⟨doc, h1, h2⟩ := roundTrip P (defaultOptions P) (savedAt ["r"] ["r", "a"] sub)
  have hf : files r.from = .ok doc := by
    simp only [P] at h1
    simp only [files, Demo.saved, savedFile, h1]
  refine ⟨fromJSON P (toJSON (defaultOptions P)), ?_, rfl, ⟨rfl, rfl, rfl, rfl, rfl, rfl, rfl⟩, ⟨fun _ => rfl, fun l => (insertSort_sorts _ l).1, fun _ _ _ => rfl⟩,
    hsub, fun _ _ _ _ => rfl, ⟨fun p g => diskOf_at p g, fun _ => rfl⟩, fun _ => rfl, rfl, rfl, Demo.distinct, ?_, ?_, fun _ _ => rfl⟩
  · rw [hf]
    simp only [resumePlatform, h2, bindOptions]
    rfl
  · refine ⟨⟨⟨["a"], rfl⟩, ?_⟩, ?_⟩
    · show ["r"] ≠ ["r", "a"]
      decide
    · show (["r", "a"] : Path).getLast? ≠ some "r"
      decide
  · intro k p
    simp only [h, Demo.byPath, Demo.at_]
    split
    · exact Or.inr ⟨e, rfl, he⟩
    · exact Or.inl rfl

end Traverse
