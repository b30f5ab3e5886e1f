import Verif.Proofs.Astray
import Verif.Props.ResumedNodes
/-
C21, C22, C25 for resumes by spawning.
-/
namespace Traverse
variable {κ σ : Type}

theorem seed_invOn {N : Node → Prop} {env : Env σ} {Inv : St σ → Prop} (h : PreservedOn N env Inv) {fault} (hf : FaultOK fault Inv) (c : Nav)
    (hN : ∀ ps path t d, N (mkNode c ps path t d)) (stat) (parent : Path) (names : List String) :
    ∀ s, Inv s → Inv (seed c env fault stat parent names s).2 := by
  induction names with
  | nil => intro s hs; exact hs
  | cons n ns ih =>
    intro s hs
    have h1 : Inv (top c env fault parent (parent ++ [n]) (stat (parent ++ [n])) s).2 := by
      cases stat (parent ++ [n]) with
      | error e => exact hf s _ e hs
      | found t => exact traverse_invOn h c hN t [] parent s hs
    rw [seed]
    rcases ht : top c env fault parent (parent ++ [n]) (stat (parent ++ [n])) s with ⟨f, s1⟩
    rw [ht] at h1
    rcases f with (_ | e) | _
    · exact ih s1 h1
    · exact h1
    · exact h1

theorem crown_invOn {N : Node → Prop} {env : Env σ} {Inv : St σ → Prop} (h : PreservedOn N env Inv) {fault} (hf : FaultOK fault Inv) (c : Nav)
    (hN : ∀ ps path t d, N (mkNode c ps path t d)) (stat) (disk : Disk) (tree : Path) (rcur : List String) : ∀ incl s, Inv s →
      Inv (crown c env fault stat disk tree rcur incl s).2.2 := by
  induction rcur with
  | nil => intro incl s hs; rw [crown]; split <;> exact hs
  | cons child rparent ih =>
    intro incl s hs
    rw [crown]
    split
    · exact hs
    · split
      · exact hs
      · rename_i names _
        have h1 := seed_invOn h hf c hN stat rparent.reverse names s hs
        rcases ht : seed c env fault stat rparent.reverse names s with ⟨f, s1⟩
        rw [ht] at h1
        rcases f with (_ | e) | _
        · exact ih false s1 h1
        · exact h1
        · exact h1

/-- A filter that panics on no node. -/
def Filter.Total (E : Engine) (F : Filter) : Prop := ∀ v, F.isMatch E v ≠ none

/-- A condition of hibernation that panics on no node. -/
def FilterOptions.Conditions (E : Engine) (f : FilterOptions) (d : Option FilterDef) (t : Option (Node → Bool)) : Prop :=
  (d = none ∧ t = none) ∨ ∃ g F, d = some g ∧ newFilter E g f = .ok (some F) ∧ F.Total E ∧ t = some (F.predicate E)

/-- A resume by spawning that can be built, with a node filter `keep` (or none) and conditions of hibernation `hib`, which do not panic;
no child filter, no sampling. `o` are the options loaded from the file and changed by the settings, `a` is the saved state. -/
structure Screened (P : Platform κ) (r : Relic κ) (settings : List (Option (Setting κ))) (files : String → Except Err Json) (o : Options κ)
    (h : κ → Parcel → κ × Reply) (a : Active) (keep : Option (Node → Bool)) (hib : HiberOpts) : Prop where
  spawn : r.strategy = .spawn
  handler : r.handler = some h
  loaded : resumePlatform P r settings (files r.from) = .ok (o, a)
  child : o.filter.child = none
  sample : o.filter.sample = none
  sampling : o.sampling.type = .undefined
  filter : ∃ F, o.filter.Asks P.engine F ∧ (∀ G, F = some G → G.Total P.engine) ∧ keep = F.map (Filter.predicate P.engine)
  wake : o.filter.Conditions P.engine o.hibernate.wakeAt hib.wakeAt
  sleep : o.filter.Conditions P.engine o.hibernate.sleepAt hib.sleepAt
  inclusiveWake : hib.inclusiveWake = o.hibernate.inclusiveWake
  inclusiveSleep : hib.inclusiveSleep = o.hibernate.inclusiveSleep
  sub : a.sub ≠ .undefined

theorem conditions_make {E : Engine} {f d t} (h : FilterOptions.Conditions E f d t) :
    ∃ F, makeTrigger E f d = .ok F ∧ t = F.map (Filter.predicate E) ∧ ∀ G, F = some G → G.Total E := by
  rcases h with ⟨rfl, rfl⟩ | ⟨g, F, rfl, h, hs, rfl⟩
  · exact ⟨none, rfl, rfl, fun _ h => by cases h⟩
  · exact ⟨some F, by simp [makeTrigger, h], rfl, fun _ h => by cases h; exact hs⟩

theorem total_dies {E : Engine} {F : Option Filter} (h : ∀ G, F = some G → G.Total E) :
    (F.map (Filter.dies E)).getD (fun _ => false) = fun _ => false := by
  cases F with
  | none => rfl
  | some G =>
    funext n
    have := h G rfl n.view
    simp only [Option.map_some, Option.getD_some, Filter.dies]
    cases hx : G.isMatch E n.view with
    | none => exact absurd hx this
    | some b => rfl

/-- What is built of them. -/
def screenedSetup (o : Options κ) (sub : Subscription) (keep : Option (Node → Bool)) (hib : HiberOpts) : Setup :=
  { windowedSetup o sub keep hib with resume := some .spawn }

theorem screened_resumed {P : Platform κ} {r settings files o h a keep hib} (hs : Screened P r settings files o h a keep hib) :
    Resumed P r settings files (screenedSetup o a.sub keep hib) o.afterwards h a := by
  obtain ⟨F, hF, hFs, hk⟩ := hs.filter
  obtain ⟨W, hW, hWt, hWs⟩ := conditions_make hs.wake
  obtain ⟨L, hL, hLt, hLs⟩ := conditions_make hs.sleep
  refine ⟨hs.handler, o, hs.loaded, ?_⟩
  have e1 : o.afterwards.filter = o.filter := rfl
  have e2 : o.afterwards.hibernate = o.hibernate := rfl
  have e3 : o.afterwards.sampling = o.sampling := rfl
  have hsa : o.sampling.active = false := by simp [SamplingOptions.active, hs.sampling]
  have hr : registerFilter P.engine o.afterwards = .ok (⟨keep.map .node, none, fun _ => false⟩, o.afterwards) := by
    rw [← total_dies hFs]
    rcases hF with ⟨h1, h2, rfl⟩ | ⟨g, h1, h2, rfl⟩ | ⟨h1, d, F, h2, h3, h4, rfl⟩ <;> subst hk
    · simp [registerFilter, createPrimary, createChild, e1, h1, h2, hs.child, hs.sample, FilterOptions.nodeActive]
    · simp [registerFilter, createPrimary, createChild, e1, h1, h2, hs.child]
    · simp [registerFilter, createPrimary, createChild, e1, h1, h2, h3, h4, hs.child]
  have hh : initHibernation P.engine o.afterwards = .ok { hib with wakeDies := fun _ => false, sleepDies := fun _ => false } := by
    simp only [initHibernation, e1, e2, hW, hL]
    rw [← hs.inclusiveWake, ← hs.inclusiveSleep, hWt, hLt, total_dies hWs, total_dies hLs]
  simp only [buildRest, hs.sub, if_false, hr, hh, initSampling, e3, hsa, hs.spawn]
  simp only [Bool.false_eq_true, if_false, e3, hsa]
  rfl

/-- What there is to know of such a session. -/
theorem screened_plain {P : Platform κ} {r settings files o h a keep hib} (hs : Screened P r settings files o h a keep hib) (disk : Disk) (x : κ) :
    let S := screenedSetup o a.sub keep hib
    let C := o.afterwards.client h
    let s := (crown S.nav (S.env C a.tree a.currentPath) o.afterwards.fault (statOf S.nav o.afterwards disk) disk a.tree a.currentPath.reverse true
      ⟨a.depth, startWorld S C .spawn a x, []⟩)
    let rep := walkResume P (.relic r) settings files disk x
    rep.verdict = s.1.verdict ∧ rep.hits = s.2.2.ext.hits ∧ (rep.verdict ≠ .panic → rep.metrics = s.2.2.ext.metrics ∧ rep.complete = s.2.1) ∧
    rep.nodes = (window hib (invoked s.2.2.log)).filter (keep.getD fun _ => true) ∧
    rep.tape.filter Obs.isHib = windowTape hib (keep.getD fun _ => true) (invoked s.2.2.log) ∧
    (keep.isSome → ∀ d, ofKind d rep.nodes + s.2.2.ext.metrics.count (filteredMetric d) =
      a.metrics.count (filteredMetric d) + ofKind d (window hib (invoked s.2.2.log))) := by
  intro S C s rep
  have hr := screened_resumed hs
  obtain ⟨f1, f2, f3, f4⟩ := resumed_facts (disk := disk) hr x
  have hrun : resumeRun S o.afterwards C disk r.strategy a (startWorld S C r.strategy a x) = s := by
    simp only [hs.spawn, resumeRun, s]
  have hord : S.Ordinary := Or.inr rfl
  have hsane : S.Sane := ⟨⟨fun _ => rfl, fun _ _ => ⟨rfl, rfl⟩⟩, fun hc => by cases hc⟩
  rw [show resumeRun (screenedSetup o a.sub keep hib) o.afterwards (o.afterwards.client h) disk r.strategy a
    (startWorld (screenedSetup o a.sub keep hib) (o.afterwards.client h) r.strategy a x) = s from hrun] at f1 f2 f3 f4
  have hacc : S.accepts = keep.getD fun _ => true := by
    funext n; cases keep <;> rfl
  have hSw : ∀ l, window S.hiber l = window hib l := fun _ => rfl
  have hSt : ∀ acc l, windowTape S.hiber acc l = windowTape hib acc l := fun _ _ => rfl
  have hI0 : PlainInv S a.metrics ⟨a.depth, startWorld S C .spawn a x, []⟩ := by
    refine (plainInv_start S hord x a.metrics).same ?_ ?_ ?_ ?_ ?_ ?_ rfl
    · simp [startWorld, St.fresh]
    · simp [startWorld, St.fresh]
    · simp [startWorld, St.fresh]
    · simp only [startWorld, if_true]
      exact filter_isHib_pub (by simp) (by simp)
    · simp [startWorld, St.fresh]
    · simp [startWorld, St.fresh]
  have hI : PlainInv S a.metrics s.2.2 :=
    crown_invOn (plainInv_preserved S hord hsane C a.metrics a.tree a.currentPath) (fun s p e h => h.same rfl rfl rfl rfl rfl rfl rfl) S.nav
      (fun ps path t d => mkNode_good S.nav ps path t d) _ disk a.tree _ true _ hI0
  have hnodes : rep.nodes = s.2.2.ext.called := by simp only [Report.nodes, show rep.hits = _ from f2, World.called]
  refine ⟨f1, f2, f3, ?_, ?_, ?_⟩
  · rw [hnodes, hI.called, hibRun_window, hacc, hSw]
  · rw [show rep.tape = _ from f4, List.filter_append, hI.tape, hibTape_window, hacc, hSt]
    split <;> simp [Obs.isHib]
  · intro hk d
    obtain ⟨f, rfl⟩ := Option.isSome_iff_exists.1 hk
    have hf : S.filter.primary = some (.node f) := rfl
    have hact : S.filter.active = true := by simp [FilterOpts.active, hf]
    have hF := (crown_invOn (fault := o.afterwards.fault) (plain_preserved hord hsane C a.metrics a.tree a.currentPath
      (fun w _ => FilterCounts (fun d => a.metrics.count (filteredMetric d)) w) (fun w l n h => h.same (by simp) (by simp) (by simp))
      (fun w l k sv h => h.same rfl rfl rfl) (fun s n rep w' _ _ hp h => filterCounts_step S f hf C hp h))
      (fun s p e h => ⟨h.1.same rfl rfl rfl rfl rfl rfl rfl, h.2.same rfl rfl rfl⟩) S.nav (fun ps path t d => mkNode_good S.nav ps path t d)
      (statOf S.nav o.afterwards disk) disk a.tree a.currentPath.reverse true ⟨a.depth, startWorld S C .spawn a x, []⟩ ⟨hI0, by
        have := filterCounts_start S f hf x a.metrics
        refine this.same ?_ ?_ ?_ <;> simp [startWorld]⟩).2
    have h2 := hF.now d
    have h3 := hI.reached
    rw [hact, if_pos rfl, hibRun_window, hSw] at h3
    rw [hnodes, ← h3]
    exact h2

section
variable (P : Platform κ) (r r₀ : Relic κ) (settings settings₀ : List (Option (Setting κ))) (files files₀ : String → Except Err Json) (disk : Disk)
  (o o₀ : Options κ) (h h₀ : κ → Parcel → κ × Reply) (a : Active) (keep : Option (Node → Bool)) (hib hib₀ : HiberOpts)

/-- **C25** (resumed by spawning) A resume with a node filter (or none) and with wake and sleep conditions (or none), and the resume of
the same saved state without them (`all`; same hooks, same behaviours), both with handlers that return nil: the first calls the handler
exactly for the nodes of the window that the filter matches, in the same order and with the same data. The window is that of the resumed
part: hibernation starts anew, whatever the interrupted session had met. Without a sleep condition Navigate returns the same. -/
theorem C25_resumed (hw : Screened P r settings files o h a keep hib) (hp : Screened P r₀ settings₀ files₀ o₀ h₀ a none hib₀)
    (hno : hib₀.wakeAt = none ∧ hib₀.sleepAt = none) (hhooks : o₀.hooks = o.hooks) (hbeh : o₀.behaviours = o.behaviours)
    (hskip : ∀ k n re, (o.defects.skip k n re).2 = (.none, none)) (hskip₀ : o₀.defects.skip = o.defects.skip)
    (hfault : ∀ k k' p e, (o.defects.fault k p e).2 = (o₀.defects.fault k' p e).2)
    (hnil : Handler.Nil h) (hnil₀ : Handler.Nil h₀) (x x' : κ) :
    let rep := walkResume P (.relic r) settings files disk x
    let all := walkResume P (.relic r₀) settings₀ files₀ disk x'
    rep.nodes = (window hib all.nodes).filter (keep.getD fun _ => true) ∧
    rep.tape.filter Obs.isHib = windowTape hib (keep.getD fun _ => true) all.nodes ∧
    (hib.sleepAt = none → rep.verdict = all.verdict ∧ (rep.verdict ≠ .panic → rep.complete = all.complete)) ∧
    (keep.isSome → rep.verdict ≠ .panic → ∀ d, ofKind d rep.nodes + rep.metrics.count (filteredMetric d) =
      a.metrics.count (filteredMetric d) + ofKind d (window hib all.nodes)) := by
  intro rep all
  obtain ⟨p1, -, p3, p4, p5, p6⟩ := screened_plain hw disk x
  obtain ⟨q1, -, q3, q4, -, -⟩ := screened_plain hp disk x'
  have hwn : ∀ l, window hib₀ l = l := by intro l; simp [window, hno.1, hno.2, upTo]
  have hns : ∀ l, hasSlept hib₀ l = false := by
    intro l; unfold hasSlept; rw [hno.2]
  have hall : all.nodes = _ := q4
  rw [hwn] at hall
  simp only [Option.getD_none, List.filter_eq_self.2 (fun _ _ => rfl)] at hall
  have hnav : o₀.afterwards.nav a.sub = o.afterwards.nav a.sub := by
    simp only [Options.nav, Nav.mk.injEq, true_and]
    refine ⟨?_, ?_, ?_, ?_⟩
    · show o₀.behaviours.sortFilesFirst = _; rw [hbeh]; rfl
    · show o₀.behaviours.cascade.afterwards.depth = _; rw [hbeh]; rfl
    · show (fun l e => o₀.hooks.readDirectory.invoke (l, e)) = _; rw [hhooks]; rfl
    · show o₀.hooks.sort.invoke = _; rw [hhooks]; rfl
  have hstat : statOf (o.afterwards.nav a.sub) o₀.afterwards disk = statOf (o.afterwards.nav a.sub) o.afterwards disk := by
    funext p
    unfold statOf
    rw [show o₀.afterwards.hooks = o.afterwards.hooks from hhooks]
  have hS₀ : (screenedSetup o₀ a.sub none hib₀).nav = (screenedSetup o a.sub keep hib).nav := hnav
  generalize hS : screenedSetup o a.sub keep hib = S at *
  generalize hT : screenedSetup o₀ a.sub none hib₀ = T at *
  have hSh : ∀ l, hasSlept S.hiber l = hasSlept hib l := by rw [← hS]; intro l; rfl
  have hTh : ∀ l, hasSlept T.hiber l = false := by rw [← hT]; exact hns
  have hSn : S.nav = o.afterwards.nav a.sub := by rw [← hS]; rfl
  have hTn : T.nav = o₀.afterwards.nav a.sub := by rw [← hT]; rfl
  have hord : S.Ordinary := by rw [← hS]; exact Or.inr rfl
  have hordT : T.Ordinary := by rw [← hT]; exact Or.inr rfl
  have hsane : S.Sane := by rw [← hS]; exact ⟨⟨fun _ => rfl, fun _ _ => ⟨rfl, rfl⟩⟩, fun hc => by cases hc⟩
  have hsaneT : T.Sane := by rw [← hT]; exact ⟨⟨fun _ => rfl, fun _ _ => ⟨rfl, rfl⟩⟩, fun hc => by cases hc⟩
  have hC : (o.afterwards.client h).Accepts := ⟨hnil, hskip⟩
  have hC₀ : (o₀.afterwards.client h₀).Accepts := ⟨hnil₀, by intro k n re; show (o₀.defects.skip k n re).2 = _; rw [hskip₀]; exact hskip k n re⟩
  have hstart : ∀ (V : Setup) (C : Client κ) (x : κ), V.Ordinary → PlainInv V a.metrics ⟨a.depth, startWorld V C .spawn a x, []⟩ := by
    intro V C x hV
    refine (plainInv_start V hV x a.metrics).same ?_ ?_ ?_ ?_ ?_ ?_ rfl
    · simp [startWorld, St.fresh]
    · simp [startWorld, St.fresh]
    · simp [startWorld, St.fresh]
    · simp only [startWorld, if_true]
      exact filter_isHib_pub (by simp) (by simp)
    · simp [startWorld, St.fresh]
    · simp [startWorld, St.fresh]
  have pS := plainInv_preserved S hord hsane (o.afterwards.client h) a.metrics a.tree a.currentPath
  have pT := plainInv_preserved T hordT hsaneT (o₀.afterwards.client h₀) a.metrics a.tree a.currentPath
  have ht : Tandem (GoodNode S.nav) (S.env (o.afterwards.client h) a.tree a.currentPath) (T.env (o₀.afterwards.client h₀) a.tree a.currentPath)
      (fun s u => (s.depth = u.depth ∧ s.log = u.log) ∧ PlainInv S a.metrics s ∧ PlainInv T a.metrics u) (fun l => hasSlept hib l = true) := by
    refine ⟨fun s u h => h.1, ?_, ?_, ?_, ?_⟩
    · intro s u p d ⟨⟨h1, h2⟩, h3, h4⟩
      exact ⟨⟨by simp [St.doDescend, h1], by simp [St.doDescend, h2]⟩, pS.descend s p d h3, pT.descend u p d h4⟩
    · intro s u p d ⟨⟨h1, h2⟩, h3, h4⟩
      exact ⟨⟨by simp [St.doAscend, h1], by simp [St.doAscend, h2]⟩, pS.ascend s p d h3, pT.ascend u p d h4⟩
    · intro s u n hn ⟨⟨h1, h2⟩, h3, h4⟩
      have r1 := accepting_reply hC h3 (doInvoke_plain (C := o.afterwards.client h) (tree := a.tree) (target := a.currentPath) h3 hord hsane n hn).1
      have r2 := accepting_reply hC₀ h4 (doInvoke_plain (C := o₀.afterwards.client h₀) (tree := a.tree) (target := a.currentPath) h4 hordT hsaneT n
        (hS₀ ▸ hn)).1
      rw [hSh] at r1
      rw [hTh] at r2
      simp only [Bool.false_eq_true, if_false] at r2
      cases hsl : hasSlept hib (invoked s.log)
      · right
        rw [hsl] at r1
        simp only [Bool.false_eq_true, if_false] at r1
        refine ⟨by rw [r1, r2], by rw [r1]; simp, ⟨?_, ?_⟩, pS.invoke s n hn h3, pT.invoke u n (hS₀ ▸ hn) h4⟩
        · simp [St.doInvoke, h1]
        · have e1 : (s.doInvoke (S.env (o.afterwards.client h) a.tree a.currentPath) n).2.log =
              s.log ++ [.invoke n (s.doInvoke (S.env (o.afterwards.client h) a.tree a.currentPath) n).1] := rfl
          have e2 : (u.doInvoke (T.env (o₀.afterwards.client h₀) a.tree a.currentPath) n).2.log =
              u.log ++ [.invoke n (u.doInvoke (T.env (o₀.afterwards.client h₀) a.tree a.currentPath) n).1] := rfl
          rw [e1, e2, h2, r1, r2]
      · exact .inl rfl
    · intro s u n re hn ⟨⟨h1, h2⟩, h3, h4⟩
      have e1 : (s.doAsk (S.env (o.afterwards.client h) a.tree a.currentPath) n re).1 = .none ∧
          (s.doAsk (S.env (o.afterwards.client h) a.tree a.currentPath) n re).2.1 = none := by
        have := hC.2 s.ext.client n re
        simp only [St.doAsk, Setup.env]
        rw [this]; exact ⟨rfl, rfl⟩
      have e2 : (u.doAsk (T.env (o₀.afterwards.client h₀) a.tree a.currentPath) n re).1 = .none ∧
          (u.doAsk (T.env (o₀.afterwards.client h₀) a.tree a.currentPath) n re).2.1 = none := by
        have := hC₀.2 u.ext.client n re
        simp only [St.doAsk, Setup.env]
        rw [this]; exact ⟨rfl, rfl⟩
      refine ⟨by rw [e1.1, e2.1], by rw [e1.2, e2.2], ⟨by simp [St.doAsk, h1], ?_⟩, pS.ask s n re hn h3, pT.ask u n re (hS₀ ▸ hn) h4⟩
      have l1 : (s.doAsk (S.env (o.afterwards.client h) a.tree a.currentPath) n re).2.2.log =
          s.log ++ [.ask n re (s.doAsk (S.env (o.afterwards.client h) a.tree a.currentPath) n re).1 (s.doAsk (S.env (o.afterwards.client h) a.tree a.currentPath) n re).2.1] := rfl
      have l2 : (u.doAsk (T.env (o₀.afterwards.client h₀) a.tree a.currentPath) n re).2.2.log =
          u.log ++ [.ask n re (u.doAsk (T.env (o₀.afterwards.client h₀) a.tree a.currentPath) n re).1 (u.doAsk (T.env (o₀.afterwards.client h₀) a.tree a.currentPath) n re).2.1] := rfl
      rw [l1, l2, h2, e1.1, e1.2, e2.1, e2.2]
  have hmain := ht.crown S.nav (fun ps path t d => mkNode_good S.nav ps path t d) (f1 := o.afterwards.fault) (f2 := o₀.afterwards.fault)
    (fun s u p e hR => ⟨hfault _ _ p e, ⟨hR.1, hR.2.1.same rfl rfl rfl rfl rfl rfl rfl, hR.2.2.same rfl rfl rfl rfl rfl rfl rfl⟩⟩)
    (statOf S.nav o.afterwards disk) disk a.tree a.currentPath.reverse true ⟨a.depth, startWorld S (o.afterwards.client h) .spawn a x, []⟩
    ⟨a.depth, startWorld T (o₀.afterwards.client h₀) .spawn a x', []⟩ ⟨⟨rfl, rfl⟩, hstart S _ x hord, hstart T _ x' hordT⟩
  rw [hS₀, hSn, hstat, ← hSn] at q1 q3 hall
  generalize crown S.nav (S.env (o.afterwards.client h) a.tree a.currentPath) o.afterwards.fault (statOf S.nav o.afterwards disk) disk a.tree
    a.currentPath.reverse true ⟨a.depth, startWorld S (o.afterwards.client h) .spawn a x, []⟩ = R1 at *
  generalize crown S.nav (T.env (o₀.afterwards.client h₀) a.tree a.currentPath) o₀.afterwards.fault (statOf S.nav o.afterwards disk) disk a.tree
    a.currentPath.reverse true ⟨a.depth, startWorld T (o₀.afterwards.client h₀) .spawn a x', []⟩ = R2 at *
  have hwin : window hib (invoked R1.2.2.log) = window hib all.nodes ∧ ∀ acc, windowTape hib acc (invoked R1.2.2.log) = windowTape hib acc all.nodes := by
    rw [hall]
    rcases hmain with ⟨-, -, ⟨-, h2⟩, -⟩ | ⟨l, h1, ⟨l1, h2⟩, ⟨l2, h3⟩⟩
    · rw [h2]; exact ⟨rfl, fun _ => rfl⟩
    · rw [← h2, ← h3, window_slept h1, window_slept h1]
      exact ⟨rfl, fun acc => by rw [windowTape_slept h1, windowTape_slept h1]⟩
  refine ⟨?_, ?_, ?_, ?_⟩
  · rw [← hwin.1]; exact p4
  · rw [← hwin.2]; exact p5
  · intro hsl
    rcases hmain with ⟨g1, g2, -⟩ | ⟨l, h1, -⟩
    · have hv : rep.verdict = all.verdict := by rw [show rep.verdict = _ from p1, show all.verdict = _ from q1, g1]
      refine ⟨hv, fun hnp => ?_⟩
      rw [(p3 hnp).2, (q3 (by rw [← show all.verdict = _ from rfl, ← hv]; exact hnp)).2, g2]
    · exfalso
      unfold hasSlept at h1
      rw [hsl] at h1
      cases h1
  · intro hk hnp d
    rw [(p3 hnp).1, ← hwin.1]
    exact p6 hk d

/-- **C21** (resumed by spawning) A node filter decides which nodes the handler is called for, and nothing else: exactly the matching ones of
those the resume without filter shows, in the same order and with the same data; Navigate returns the same and says the same of completeness. -/
theorem C21_resumed (f : Node → Bool) (hw : Screened P r settings files o h a (some f) hib) (hno : hib.wakeAt = none ∧ hib.sleepAt = none)
    (hp : Screened P r₀ settings₀ files₀ o₀ h₀ a none hib₀) (hno₀ : hib₀.wakeAt = none ∧ hib₀.sleepAt = none) (hhooks : o₀.hooks = o.hooks)
    (hbeh : o₀.behaviours = o.behaviours) (hskip : ∀ k n re, (o.defects.skip k n re).2 = (.none, none)) (hskip₀ : o₀.defects.skip = o.defects.skip)
    (hfault : ∀ k k' p e, (o.defects.fault k p e).2 = (o₀.defects.fault k' p e).2)
    (hnil : Handler.Nil h) (hnil₀ : Handler.Nil h₀) (x x' : κ) :
    let rep := walkResume P (.relic r) settings files disk x
    let all := walkResume P (.relic r₀) settings₀ files₀ disk x'
    rep.nodes = all.nodes.filter f ∧ rep.verdict = all.verdict ∧ (rep.verdict ≠ .panic → rep.complete = all.complete) := by
  obtain ⟨h1, -, h3, -⟩ := C25_resumed P r r₀ settings settings₀ files files₀ disk o o₀ h h₀ a (some f) hib hib₀ hw hp hno₀ hhooks hbeh hskip hskip₀
    hfault hnil hnil₀ x x'
  refine ⟨?_, h3 hno.2⟩
  rw [h1]
  have : ∀ l, window hib l = l := by intro l; simp [window, hno.1, hno.2, upTo]
  rw [this]; rfl

/-- **C22** (resumed by spawning) Every node of the window is either handed to the handler or counted as filtered out, files (`false`) and
directories (`true`) apart; the counts of the saved session are carried over. -/
theorem C22_resumed (f : Node → Bool) (hw : Screened P r settings files o h a (some f) hib)
    (hp : Screened P r₀ settings₀ files₀ o₀ h₀ a none hib₀) (hno₀ : hib₀.wakeAt = none ∧ hib₀.sleepAt = none) (hhooks : o₀.hooks = o.hooks)
    (hbeh : o₀.behaviours = o.behaviours) (hskip : ∀ k n re, (o.defects.skip k n re).2 = (.none, none)) (hskip₀ : o₀.defects.skip = o.defects.skip)
    (hfault : ∀ k k' p e, (o.defects.fault k p e).2 = (o₀.defects.fault k' p e).2)
    (hnil : Handler.Nil h) (hnil₀ : Handler.Nil h₀) (x x' : κ) (d : Bool) :
    let rep := walkResume P (.relic r) settings files disk x
    let all := walkResume P (.relic r₀) settings₀ files₀ disk x'
    rep.verdict ≠ .panic →
    ofKind d rep.nodes + rep.metrics.count (filteredMetric d) = a.metrics.count (filteredMetric d) + ofKind d (window hib all.nodes) := by
  intro rep all hnp
  exact (C25_resumed P r r₀ settings settings₀ files files₀ disk o o₀ h h₀ a (some f) hib hib₀ hw hp hno₀ hhooks hbeh hskip hskip₀
    hfault hnil hnil₀ x x').2.2.2 rfl hnp d

end

/-! ### Cases -/

/-- Only poly filters, and filters of the client, panic. -/
theorem newFilter_total {E : Engine} {d : FilterDef} {fo : FilterOptions} {F : Filter} (h : newFilter E d fo = .ok (some F))
    (hc : ∀ c, fo.custom = some c → ∀ v, c.isMatch v ≠ none) (hp : d.core.type ≠ .poly) : F.Total E := by
  intro v
  have hb : buildPoly E d fo = .ok none := by unfold buildPoly; rw [if_pos (by simpa using hp)]
  unfold newFilter at h
  rw [hb] at h
  simp only at h
  cases hcu : fo.custom with
  | some c => rw [hcu] at h; cases h; exact hc c hcu _
  | none => rw [hcu] at h; exact buildNative_total h _

/-- Not vacuous: the demo session saved in /r/a/b, resumed with a filter against what is called "y", awake from "b" to "c"; and without. -/
example :
    let P := sortPlatform
    let h := Demo.byPath Demo.quiet
    let a := (savedAt ["r"] ["r", "a", "b"] .universal).active
    let wake : FilterDef := .plain { type := .regex, pattern := "b" }
    let sleep : FilterDef := .plain { type := .regex, pattern := "c" }
    let nodef : FilterDef := .plain { type := .regex, pattern := "y", negate := true }
    let files := Demo.saved ["r", "a", "b"] .universal
    let settings := settingsOf P [some (.filterWake (some wake)), some (.filterSleep (some sleep)), some (.filter { node := some nodef } none)]
    let rep := walkResume P (.relic (Demo.relic .spawn Demo.quiet)) settings files (diskOf [] Demo.fs) 0
    (∃ o o₀ keep hib hib₀, Screened P (Demo.relic .spawn Demo.quiet) settings files o h a (some keep) hib ∧ hib.wakeAt.isSome ∧ hib.sleepAt.isSome ∧
      Screened P (Demo.relic .spawn Demo.quiet) [] files o₀ h a none hib₀ ∧ (hib₀.wakeAt = none ∧ hib₀.sleepAt = none) ∧ o₀.hooks = o.hooks ∧
      o₀.behaviours = o.behaviours ∧ (∀ k n re, (o.defects.skip k n re).2 = (.none, none)) ∧ o₀.defects.skip = o.defects.skip ∧
      (∀ k k' p e, (o.defects.fault k p e).2 = (o₀.defects.fault k' p e).2) ∧ Handler.Nil h) ∧
    rep.nodes.map (fun n => n.path) = [["r", "a", "b"], ["r", "a", "b", "z"], ["r", "a", "x"]] ∧
    rep.metrics.count .filesFilteredOut = 1 := by
  intro P h a wake sleep nodef files settings rep
  refine ⟨?_, by decide +kernel⟩
  obtain ⟨doc, h1, h2⟩ := roundTrip sortPlatform (defaultOptions sortPlatform) (savedAt ["r"] ["r", "a", "b"] .universal)
  have hf : files (Demo.relic .spawn Demo.quiet).from = .ok doc := by simp only [files, Demo.saved, savedFile, h1]
  have hplat (ws) : resumePlatform sortPlatform (Demo.relic .spawn Demo.quiet) (settingsOf sortPlatform ws) (.ok doc) =
      .ok ((bindOptions (fromJSON sortPlatform (toJSON (defaultOptions sortPlatform))) (settingsOf sortPlatform ws)).1, a) := by
    simp only [resumePlatform, h2, bindOptions, applyAll_settings]
    rfl
  have key : ∃ o F G K, (bindOptions (fromJSON sortPlatform (toJSON (defaultOptions sortPlatform))) settings).1 = o ∧ o.filter.custom = none ∧
      o.filter.node = some nodef ∧ o.filter.nodeActive = true ∧
      newFilter P.engine nodef o.filter = .ok (some F) ∧ o.hibernate.wakeAt = some wake ∧ o.hibernate.sleepAt = some sleep ∧
      newFilter P.engine wake o.filter = .ok (some G) ∧ newFilter P.engine sleep o.filter = .ok (some K) ∧
      o.filter.child = none ∧ o.filter.sample = none ∧ o.sampling.type = .undefined :=
    ⟨_, _, _, _, rfl, rfl, rfl, rfl, rfl, rfl, rfl, rfl, rfl, rfl, rfl, rfl⟩
  obtain ⟨o, F, G, K, e1, e2, e3, e4, e5, e6, e7, e8, e9, e10, e11, e12⟩ := key
  have hcu : ∀ c, o.filter.custom = some c → ∀ v, c.isMatch v ≠ none := by rw [e2]; intro _ h; cases h
  refine ⟨o, (bindOptions (fromJSON sortPlatform (toJSON (defaultOptions sortPlatform))) []).1, F.predicate P.engine,
    ⟨some (G.predicate P.engine), some (K.predicate P.engine), o.hibernate.inclusiveWake, o.hibernate.inclusiveSleep, fun _ => false, fun _ => false⟩,
    ⟨none, none, true, false, fun _ => false, fun _ => false⟩,
    ⟨rfl, rfl, by rw [hf, ← e1]; exact hplat _, e10, e11, e12,
      ⟨some F, .inr (.inr ⟨e2, nodef, F, e3, e4, e5, rfl⟩), (fun _ h => by cases h; exact newFilter_total e5 hcu (by decide)), rfl⟩,
      .inr ⟨wake, G, e6, e8, newFilter_total e8 hcu (by decide), rfl⟩, .inr ⟨sleep, K, e7, e9, newFilter_total e9 hcu (by decide), rfl⟩, rfl, rfl, by decide⟩,
    rfl, rfl,
    ⟨rfl, rfl, by rw [hf]; exact hplat [], rfl, rfl, rfl, ⟨none, .inl ⟨rfl, rfl, rfl⟩, (fun _ h => by cases h), rfl⟩, .inl ⟨rfl, rfl⟩, .inl ⟨rfl, rfl⟩,
      rfl, rfl, by decide⟩,
    ⟨rfl, rfl⟩, by rw [← e1]; rfl, by rw [← e1]; rfl, by rw [← e1]; intro _ _ _; rfl, by rw [← e1]; rfl, by rw [← e1]; intro _ _ _ _; rfl, fun _ _ => rfl⟩

/-- **C25, what is false of interrupted and resumed sessions** (`C63`): awake from "b" on, an uninterrupted session delivers everything from /r/a/b on.
Interrupted at /r/c/w, the session is saved in /r/c; the resume by spawning begins to hibernate anew, does not come to /r/a/b, delivers nothing,
returns nil and says it is complete. The fastward resume, which passes /r/a/b, delivers the rest. -/
theorem C25_forgotten :
    let P := sortPlatform
    let wake : FilterDef := .plain { type := .regex, pattern := "b" }
    let settings := settingsOf P [some (.filterWake (some wake))]
    let first (g) := walkPrime P (.using { toyUsing .universal with handler := some (Demo.byPath g) }) settings (diskOf [] Demo.fs) 0
    let next (st : Strategy) := walkResume P (.relic (Demo.relic st Demo.quiet)) settings (Demo.saved ["r", "c"] .universal) (diskOf [] Demo.fs) 0
    (first Demo.quiet).nodes.map (fun n => n.path) =
      [["r", "a", "b"], ["r", "a", "b", "y"], ["r", "a", "b", "z"], ["r", "a", "x"], ["r", "c"], ["r", "c", "w"], ["r", "f"], ["r", "g"]] ∧
    (first (Demo.at_ ["r", "c", "w"] .panic)).nodes.map (fun n => n.path) =
      [["r", "a", "b"], ["r", "a", "b", "y"], ["r", "a", "b", "z"], ["r", "a", "x"], ["r", "c"], ["r", "c", "w"]] ∧
    ((next .spawn).nodes, (next .spawn).verdict, (next .spawn).complete) = ([], .done none, true) ∧
    (next .fastward).nodes.map (fun n => n.path) = [["r", "c"], ["r", "c", "w"], ["r", "f"], ["r", "g"]] := by
  decide +kernel

/-- **C26, what is false of resumes by spawning**: the sleep condition is met at /r/c; Navigate returns the sentinel SkipAll and the session is not
complete, where a prime session returns nil and is. -/
theorem C26_resumed_skipAll :
    let P := sortPlatform
    let sleep : FilterDef := .plain { type := .regex, pattern := "c" }
    let settings := settingsOf P [some (.filterSleep (some sleep))]
    let rep := walkResume P (.relic (Demo.relic .spawn Demo.quiet)) settings (Demo.saved ["r", "a"] .universal) (diskOf [] Demo.fs) 0
    let first := walkPrime P (.using { toyUsing .universal with handler := some (Demo.byPath Demo.quiet) }) settings (diskOf [] Demo.fs) 0
    rep.nodes.map (fun n => n.path) = [["r", "a"], ["r", "a", "b"], ["r", "a", "b", "y"], ["r", "a", "b", "z"], ["r", "a", "x"]] ∧
    (rep.verdict, rep.complete) = (.done (some .skipAll), false) ∧ (first.verdict, first.complete) = (.done none, true) := by
  decide +kernel

/-- **C53, what is false of resumes by spawning**: a poly filter panics on the first file that lies in a directory on the way to the saved path,
since that node has no Parent, and the panic leaves Navigate; a fastward resume with the same filter delivers everything. -/
theorem C53_resumed_panics :
    let P := sortPlatform
    let all : FilterDef := .plain { type := .glob, pattern := "*" }
    let settings := settingsOf P [some (.filter { node := some (.both { type := .poly } all all) } none)]
    let rep (st) := walkResume P (.relic (Demo.relic st Demo.quiet)) settings (Demo.saved ["r", "a", "b"] .universal) (diskOf [] Demo.fs) 0
    (rep .spawn).nodes.map (fun n => n.path) = [["r", "a", "b"], ["r", "a", "b", "y"], ["r", "a", "b", "z"]] ∧ (rep .spawn).verdict = .panic ∧
    (rep .fastward).nodes.map (fun n => n.path) =
      [["r", "a", "b"], ["r", "a", "b", "y"], ["r", "a", "b", "z"], ["r", "a", "x"], ["r", "c"], ["r", "c", "w"], ["r", "f"], ["r", "g"]] ∧
    (rep .fastward).verdict = .done none := by
  decide +kernel

end Traverse
