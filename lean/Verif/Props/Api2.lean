import Verif.Props.Api
import Verif.Props.Saved
import Verif.Props.Hibernate
import Verif.Props.Children
import Verif.Proofs.Calm
/-
More properties of whole sessions: panics (C17, C18), and filters and hibernation as the options define them (C21, C22, C25, C33).
-/
namespace Traverse
variable {κ : Type}

/-! ### Panics -/

/-- The answer of the panic handler is its answer to the state it was given. -/
def RescueInv (C : Client κ) (s : St (World κ)) : Prop :=
  ∀ a, s.ext.saves.getLast? = some a → ∃ k, ∀ es n d r, acts s.log = es ++ [.rescue n d r] → (C.panics k a).2 = r

theorem rescueInv_preserved (S : Setup) (C : Client κ) (tree target : Path) : Preserved (S.env C tree target) (RescueInv C) := by
  refine ⟨?_, ?_, ?_, ?_, ?_⟩
  · intro s p d h
    simpa [RescueInv, St.doDescend, Setup.env, acts, Ev.isAct] using h
  · intro s p d h
    simpa [RescueInv, St.doAscend, Setup.env, acts, Ev.isAct] using h
  · intro s n h a _
    refine ⟨s.ext.client, fun es m d r he => ?_⟩
    simp only [St.doInvoke, acts, List.filter_append] at he
    have := congrArg List.getLast? he
    simp [Ev.isAct] at this
  · intro s n re h a _
    refine ⟨s.ext.client, fun es m d r he => ?_⟩
    simp only [St.doAsk, acts, List.filter_append] at he
    have := congrArg List.getLast? he
    simp [Ev.isAct] at this
  · intro s n h a ha
    refine ⟨s.ext.client, fun es m d r he => ?_⟩
    simp only [St.doRescue, Setup.env, List.getLast?_append, List.getLast?_singleton, Option.some_or, Option.some.injEq] at ha
    simp only [St.doRescue, acts, List.filter_append] at he
    have := congrArg List.getLast? he
    simp [Ev.isAct] at this
    rw [← this.2.2, ← ha]
    rfl

theorem rescueInv_session (S : Setup) (C : Client κ) (x : κ) (carried : Metrics) (target pre : Path) (fs : FS) :
    RescueInv C (S.session C x carried target pre fs).2 :=
  traverse_inv (rescueInv_preserved S C _ target) S.nav _ [] pre _ (by intro a ha; simp [St.fresh, Setup.world] at ha)

section
variable (P : Platform κ) (u : Using κ) (settings : List (Option (Setting κ))) (disk : Disk) (S : Setup) (o : Options κ)
  (h : κ → Parcel → κ × Reply) (pre : Path) (fs : FS)

/-- **C17, C18** (partial: not at the root, see `C17_root_panic_escapes`) A handler call that panics for a node below the root is
the last one. Navigate returns the error made from what the panic handler answered to the saved state `a`, which names the tree path,
the subscription, the directory of the node with its depth, and the number of handler calls, the panicking one included. -/
theorem C17_session_partial (hs : Started P u settings disk S o h pre fs) (hsort : SortPermutes (o.nav u.sub))
    (hread : ReadSelects (o.nav u.sub)) (x : κ) (n : Node) (hroot : n.path ≠ u.tree) :
    let rep := walkPrime P (.using u) settings disk x
    (n, .panic) ∈ rep.answers → ∃ before k a,
      rep.answers = before ++ [(n, .panic)] ∧ (∀ c ∈ before, c.2 ≠ .panic) ∧
      rep.verdict = .done (some (o.defects.panic k a).2.err) ∧ rep.complete = true ∧
      a.tree = u.tree ∧ a.sub = u.sub ∧ a.currentPath = n.path.dropLast ∧ a.isDir = true ∧
      (a.depth : Int) = (a.currentPath.length : Int) - u.tree.length ∧
      ∀ d, a.metrics.count (invokedMetric d) = ofKind d rep.nodes := by
  have h1 := started_session hs x
  simp only at h1
  intro rep hm
  have hnav := (primary_ready hs.built).2.1
  generalize hy : (o.client h).listen x (.begin u.tree) = y at h1
  have hhits : rep.hits = (S.session (o.client h) y (fun _ => none) [] pre fs).2.ext.hits := by
    simp only [rep, h1]
    cases (S.session (o.client h) y (fun _ => none) [] pre fs).1 <;> rfl
  have hsub : rep.answers.Sublist (calls (S.session (o.client h) y (fun _ => none) [] pre fs).2.log) := by
    show (List.map _ rep.hits).Sublist _
    rw [hhits]; exact session_hitsIn S (o.client h) y (fun _ => none) [] pre fs
  have hcall := hsub.subset hm
  have hr' : n.path ≠ pre ++ [fs.name] := by rw [← hs.tree]; exact hroot
  obtain ⟨before, cur, r, g1, g2, g3, g4, g5⟩ := C17_panic_rescued_partial S.nav _ (S.world y (fun _ => none)) pre fs n hcall hr'
  obtain ⟨a, parent, s1, s2, s3, s4, s5, s6, s7, s8, s9, s10, -⟩ := C18_saved_state S (o.client h) y (fun _ => none) [] pre fs (hnav ▸ hsort)
    (hnav ▸ hread) n hcall hr'
  obtain ⟨k, hk⟩ := rescueInv_session S (o.client h) y (fun _ => none) [] pre fs a (by rw [s1]; rfl)
  have hkr : (o.defects.panic k a).2 = r := hk (before ++ [.invoke n .panic]) cur (n.depth - 1) r (by
    refine Eq.trans g1 ?_
    simp)
  have hc : calls (S.session (o.client h) y (fun _ => none) [] pre fs).2.log = calls before ++ [(n, .panic)] := by
    rw [← calls_acts]
    refine Eq.trans (congrArg calls g1) ?_
    simp [calls]
  have hnp : ∀ c ∈ calls before, c.2 ≠ .panic := by
    rintro ⟨m, r⟩ hc rfl
    exact g3 m (mem_calls.1 hc)
  obtain ⟨b, hb1, hb2⟩ := sublist_last (by rw [← hc]; exact hsub) hm (fun hc => hnp _ hc rfl)
  have hfin : (S.session (o.client h) y (fun _ => none) [] pre fs).1 = .done (some r.err) := g5
  refine ⟨b, k, a, hb1, fun c hc => hnp c (hb2.subset hc), ?_, ?_, ?_, ?_, s5, s7, ?_, ?_⟩
  · simp only [rep, h1, hfin, hkr]
  · simp only [rep, h1, hfin]
  · rw [s3, hs.tree]
  · rw [s4, hnav]; rfl
  · rw [s9, hs.tree]; simp
  · intro d
    have := s10 d
    rw [this]
    simp only [Report.nodes, hhits, World.called]
    exact Nat.zero_add _
end

/-! ### Filters and hibernation -/

/-- A filter that panics on no node of a traversal of `fs`. -/
def Filter.Safe (E : Engine) (fs : FS) (F : Filter) : Prop := ∀ n : Node, n.Of fs → F.isMatch E n.view ≠ none

/-- The node filter the options ask for, if they ask for one. -/
def FilterOptions.Asks (E : Engine) (f : FilterOptions) (F : Option Filter) : Prop :=
  (f.custom = none ∧ f.node = none ∧ F = none) ∨
  (∃ c, f.custom = some c ∧ c.validate = none ∧ F = some (.custom c.isMatch)) ∨
  (f.custom = none ∧ ∃ d G, f.node = some d ∧ f.nodeActive = true ∧ newFilter E d f = .ok (some G) ∧ F = some G)

/-- What the node filter of the options says, if there is one: `keep n` is the verdict on `n`. It panics on no node of the tree. -/
def FilterOptions.Keeps (E : Engine) (fs : FS) (f : FilterOptions) (keep : Option (Node → Bool)) : Prop :=
  ∃ F, f.Asks E F ∧ (∀ G, F = some G → G.Safe E fs) ∧ keep = F.map (Filter.predicate E)

/-- What a trigger says. It panics on no node of the tree. -/
def FilterOptions.Triggers (E : Engine) (fs : FS) (f : FilterOptions) (d : Option FilterDef) (t : Option (Node → Bool)) : Prop :=
  (d = none ∧ t = none) ∨ ∃ g F, d = some g ∧ newFilter E g f = .ok (some F) ∧ F.Safe E fs ∧ t = some (F.predicate E)

theorem triggers_make {E : Engine} {fs f d t} (h : FilterOptions.Triggers E fs f d t) :
    ∃ F, makeTrigger E f d = .ok F ∧ t = F.map (Filter.predicate E) ∧ ∀ G, F = some G → G.Safe E fs := by
  rcases h with ⟨rfl, rfl⟩ | ⟨g, F, rfl, h, hs, rfl⟩
  · exact ⟨none, rfl, rfl, fun _ h => by cases h⟩
  · exact ⟨some F, by simp [makeTrigger, h], rfl, fun _ h => by cases h; exact hs⟩

theorem safe_dies {E : Engine} {fs} {F : Option Filter} (h : ∀ G, F = some G → G.Safe E fs) (n : Node) (hn : n.Of fs) :
    (F.map (Filter.dies E)).getD (fun _ => false) n = false := by
  cases F with
  | none => rfl
  | some G =>
    have := h G rfl n hn
    simp only [Option.map_some, Option.getD_some, Filter.dies]
    cases hm : G.isMatch E n.view with
    | none => exact absurd hm this
    | some b => rfl

theorem buildNative_total {E : Engine} {d F} (h : buildNative E d = .ok (some F)) (v : View) : F.isMatch E v ≠ none := by
  simp only [buildNative] at h
  cases hd : d.type <;> rw [hd] at h <;> simp only at h
  case globEx =>
    split at h <;> try cases h
    split at h <;> cases h
    simp [Filter.isMatch]
  case regex =>
    split at h <;> cases h
    simp [Filter.isMatch]
  all_goals (cases h; try simp [Filter.isMatch])

/-- Filters of a definition panic on no node of a tree, except that a poly filter does on a root that is a file; unless a client's own
filter does. -/
theorem newFilter_safe {E : Engine} {d fo F fs} (h : newFilter E d fo = .ok (some F))
    (hc : ∀ c, fo.custom = some c → ∀ v, c.isMatch v ≠ none) (hp : d.core.type = .poly → fs.isDir = true) : F.Safe E fs := by
  have hcon : ∀ {k G}, buildConstituent E fo k = .ok G → ∀ v, G.isMatch E v ≠ none := by
    intro k G hk v
    unfold buildConstituent at hk
    cases hcu : fo.custom with
    | some c =>
      simp only [hcu] at hk
      cases hv : c.validate <;> rw [hv] at hk <;> simp only at hk <;> cases hk
      exact hc c hcu v
    | none =>
      simp only [hcu] at hk
      cases hb : buildNative E k with
      | ok f =>
        cases f <;> rw [hb] at hk <;> simp only at hk <;> cases hk
        exact buildNative_total hb v
      | err e => rw [hb] at hk; cases hk
      | panic => rw [hb] at hk; cases hk
  intro n hn
  unfold newFilter at h
  cases hb : buildPoly E d fo with
  | err e => rw [hb] at h; cases h
  | panic => rw [hb] at h; cases h
  | ok f =>
    cases f with
    | none =>
      rw [hb] at h
      simp only at h
      cases hcu : fo.custom with
      | some c => rw [hcu] at h; cases h; exact hc c hcu _
      | none => rw [hcu] at h; exact buildNative_total h _
    | some f =>
      rw [hb] at h; cases h
      unfold buildPoly at hb
      by_cases ht : d.core.type = .poly
      · rw [if_neg (by simp [ht])] at hb
        revert hb
        rcases fo.node.bind FilterDef.poly with _ | ⟨file, dir⟩
        · intro hb; cases hb
        · simp only
          split
          · intro hb; cases hb
          · cases h1 : buildConstituent E fo (file.core.narrow Scope.file Scope.directory) <;> simp only
            case ok ff =>
              split
              · intro hb; cases hb
              · cases h2 : buildConstituent E fo (dir.core.narrow Scope.directory Scope.file) <;> simp only
                case ok fd =>
                  intro hb; cases hb
                  unfold Filter.isMatch
                  by_cases hd : n.view.isDir = true
                  · simp [hd]
                  · rw [if_neg hd]
                    have hne : n.parents ≠ [] := fun he => hd ((hn he).trans (hp ht))
                    cases hps : n.parents with
                    | nil => exact absurd hps hne
                    | cons q qs =>
                      simp only [View.parent, Node.view, hps]
                      have := hcon h2 { q with parents := qs }
                      cases hm : fd.isMatch E { q with parents := qs } with
                      | none => exact absurd hm this
                      | some b => cases b <;> simp only <;> first | exact hcon h1 _ | simp
                all_goals (intro hb; cases hb)
            all_goals (intro hb; cases hb)
      · rw [if_pos ht] at hb; cases hb

/-- Settings with a node filter (or none) and wake and sleep conditions (or none); no child filter, no sampling. -/
structure Windowed (P : Platform κ) (u : Using κ) (settings : List (Option (Setting κ))) (disk : Disk) (o : Options κ)
    (h : κ → Parcel → κ × Reply) (pre : Path) (fs : FS) (keep : Option (Node → Bool)) (hib : HiberOpts) : Prop where
  noOptions : u.o = none
  options : getOptions P settings = (o, none)
  child : o.filter.child = none
  sample : o.filter.sample = none
  sampling : o.sampling.type = .undefined
  filter : o.filter.Keeps P.engine fs keep
  wake : o.filter.Triggers P.engine fs o.hibernate.wakeAt hib.wakeAt
  sleep : o.filter.Triggers P.engine fs o.hibernate.sleepAt hib.sleepAt
  inclusiveWake : hib.inclusiveWake = o.hibernate.inclusiveWake
  inclusiveSleep : hib.inclusiveSleep = o.hibernate.inclusiveSleep
  sub : u.sub ≠ .undefined
  handler : u.handler = some h
  tree : u.tree = pre ++ [fs.name]
  disk : disk u.tree = .ok fs
  status : ∀ r, o.hooks.queryStatus.invoke r = r

/-- What is built of them, but for the panics of the filters. -/
def windowedSetup (o : Options κ) (sub : Subscription) (keep : Option (Node → Bool)) (hib : HiberOpts) : Setup :=
  { nav := o.afterwards.nav sub, hiber := { hib with wakeDies := fun _ => false, sleepDies := fun _ => false }, filter := ⟨keep.map .node, none, fun _ => false⟩ }

theorem windowed_started {P : Platform κ} {u settings disk o h pre fs keep hib}
    (hw : Windowed P u settings disk o h pre fs keep hib) :
    ∃ S, Started P u settings disk S o.afterwards h pre fs ∧ S.calmed = windowedSetup o u.sub keep hib ∧ ∀ n : Node, n.Of fs → S.CalmAt n := by
  obtain ⟨F, hF, hFs, hk⟩ := hw.filter
  obtain ⟨W, hW, hWt, hWs⟩ := triggers_make hw.wake
  obtain ⟨L, hL, hLt, hLs⟩ := triggers_make hw.sleep
  refine ⟨{ nav := o.afterwards.nav u.sub
            hiber := { hib with wakeDies := (W.map (Filter.dies P.engine)).getD fun _ => false, sleepDies := (L.map (Filter.dies P.engine)).getD fun _ => false }
            filter := ⟨keep.map .node, none, (F.map (Filter.dies P.engine)).getD fun _ => false⟩ }, ?_, rfl,
    fun n hn => ⟨safe_dies hFs n hn, safe_dies hWs n hn, safe_dies hLs n hn⟩⟩
  refine ⟨?_, hw.handler, hw.tree, hw.disk, hw.status⟩
  have hne : u.tree ≠ [] := by rw [hw.tree]; simp
  have hv : u.validate = none := by simp [Using.validate, hne, hw.sub, hw.handler]
  have hpp : primaryPlatform P (.using u) settings = (o, none) := by simp [primaryPlatform, hw.noOptions, hv, hw.options]
  have e1 : o.afterwards.filter = o.filter := rfl
  have e2 : o.afterwards.hibernate = o.hibernate := rfl
  have e3 : o.afterwards.sampling = o.sampling := rfl
  have hsa : o.sampling.active = false := by simp [SamplingOptions.active, hw.sampling]
  have hr : registerFilter P.engine o.afterwards = .ok (⟨keep.map .node, none, (F.map (Filter.dies P.engine)).getD fun _ => false⟩, o.afterwards) := by
    rcases hF with ⟨h1, h2, rfl⟩ | ⟨g, h1, h2, rfl⟩ | ⟨h1, d, F, h2, h3, h4, rfl⟩ <;> subst hk
    · simp [registerFilter, createPrimary, createChild, e1, h1, h2, hw.child, hw.sample, FilterOptions.nodeActive]
    · simp [registerFilter, createPrimary, createChild, e1, h1, h2, hw.child]
    · simp [registerFilter, createPrimary, createChild, e1, h1, h2, h3, h4, hw.child]
  have hh : initHibernation P.engine o.afterwards = .ok { hib with wakeDies := (W.map (Filter.dies P.engine)).getD fun _ => false, sleepDies := (L.map (Filter.dies P.engine)).getD fun _ => false } := by
    simp only [initHibernation, e1, e2, hW, hL]
    rw [← hw.inclusiveWake, ← hw.inclusiveSleep, hWt, hLt]
  simp only [buildPrimary, hpp, buildRest, hw.sub, if_false, hr, hh, initSampling, e3, hsa]
  simp only [Bool.false_eq_true, if_false, e3, hsa]

/-- With handlers that accept everything nothing panics; and Navigate returns nil, unless the Files subscription is told to sleep
(then it may return SkipAll). -/
theorem accepted_final {S : Setup} (ho : S.Ordinary) (hs : S.Sane) (C : Client κ) (hC : C.Accepts) (x : κ)
    (carried : Metrics) (target pre : Path) (fs : FS) (hsort : SortPermutes S.nav) (hread : S.nav.read = defaultRead)
    (hdistinct : fs.Distinct) :
    (S.session C x carried target pre fs).1 ≠ .panic ∧
    (S.nav.sub ≠ .files ∨ S.hiber.sleepAt = none → (S.session C x carried target pre fs).1 = .done none) := by
  have hrep := session_replies ho hs C hC x carried target pre fs
  have hrun := walk_run S.nav (S.env C (pre ++ [fs.name]) target) (S.world x carried) pre fs
  have hsel := defaultRead_selects _ hread
  have hskip : DefaultSkip (S.env C (pre ++ [fs.name]) target) := fun w n re => hC.2 w.client n re
  have hask : ∀ n re sk e, Ev.ask n re sk e ∈ (S.session C x carried target pre fs).2.log → sk = .none ∧ e = none := by
    intro n re sk e hm
    obtain ⟨y, hy⟩ := walk_from S.nav (S.env C (pre ++ [fs.name]) target) (S.world x carried) pre fs _ hm
    have := hskip y n re
    rw [hy] at this
    simpa using this
  have hnp : ∀ n, (n, Reply.panic) ∉ calls (S.session C x carried target pre fs).2.log := by
    intro n hm
    obtain ⟨b, a, hsp⟩ := List.append_of_mem hm
    have := hrep b n _ a hsp
    split at this <;> cases this
  refine ⟨?_, ?_⟩
  · intro hf
    have hf' : (walk S.nav (S.env C (pre ++ [fs.name]) target) (S.world x carried) pre fs).1 = .panic := hf
    rw [hf'] at hrun
    obtain ⟨n, hn⟩ := hrun.final_panic rfl
    exact hnp n (mem_calls.2 (mem_acts hn))
  · intro hc
    by_cases hfs : S.nav.sub = .files
    · have hno : S.hiber.sleepAt = none := hc.resolve_left (fun h => h hfs)
      have hns : ∀ l, hasSlept S.hiber l = false := by intro l; simp [hasSlept, hno]
      refine (hrun.accepting ?_ (fun n re sk e hm => hask n re sk e (mem_acts hm))
        (fun _ => items0_shut S.nav hsort hread fs hdistinct [] pre 0)
        (fun _ it hit hn it' hit' => items_leaf S.nav _ (prep_wf S.nav hsort hsel fs) (prep_distinct S.nav hsort hsel fs hdistinct) _ _ _ it hit hn it' hit')
        (items_preOrder S.nav _ (prep_distinct S.nav hsort hsel fs hdistinct) _ _ _)
        (fun it hit => items_depth S.nav _ _ _ _ it hit) (items_root S.nav _ _ _ _)).2
      intro n r hm
      obtain ⟨b, a, hsp⟩ := List.append_of_mem (mem_calls.2 (mem_acts hm))
      have := hrep b n r a hsp
      rwa [hns] at this
    · obtain ⟨-, h2⟩ := walk_pruned S.nav (S.env C (pre ++ [fs.name]) target) (S.world x carried) pre fs hfs hsort hsel hdistinct
        (fun n re sk e hm => Or.inr (hask n re sk e hm).1)
      obtain ⟨-, h3⟩ := h2 (by
        intro n r hm
        obtain ⟨before, after, hsp⟩ := List.append_of_mem (mem_calls.2 hm)
        rw [hrep before n r after hsp]
        split
        · refine ⟨by simp, ?_⟩
          rintro e he ⟨_, g2⟩
          simp at he; subst he; cases g2
        · simp)
      rcases h3 with h3 | ⟨n, e, hm, hd, -⟩
      · exact h3
      · exfalso
        obtain ⟨before, after, hsp⟩ := List.append_of_mem (mem_calls.2 hm)
        have hr := hrep before n _ after hsp
        have hb : before = [] := by
          rcases before with _ | ⟨m, before⟩
          · rfl
          · exfalso
            have hpw := (C02_preorder S.nav (S.env C (pre ++ [fs.name]) target) (S.world x carried) pre fs hsort hsel hdistinct).1
            have hinv : invoked (walk S.nav (S.env C (pre ++ [fs.name]) target) (S.world x carried) pre fs).2.log =
                m.1 :: (before.map Prod.fst ++ n :: after.map Prod.fst) := by
              unfold invoked; rw [hsp]; simp
            have h06 := C06_depth S.nav (S.env C (pre ++ [fs.name]) target) (S.world x carried) pre fs
            rw [hinv] at hpw h06
            have hn := h06 n (by simp)
            have hm' := h06 m.1 (by simp)
            rw [List.pairwise_cons] at hpw
            apply hpw.1 n (by simp)
            have : n.path = pre ++ [fs.name] := by
              refine (hn.1.eq_of_length ?_).symm
              have := hn.2
              simp; omega
            rw [this]; exact hm'.1
        subst hb
        rw [List.map_nil, nil_not_slept] at hr
        cases hr

section
variable (P : Platform κ) (u : Using κ) (settings settings₀ : List (Option (Setting κ))) (disk : Disk) (o o₀ : Options κ)
  (h h₀ : κ → Parcel → κ × Reply) (pre : Path) (fs : FS) (keep : Option (Node → Bool)) (hib : HiberOpts)

/-- **C25** A session with a node filter (or none) and with wake and sleep conditions (or none), and the session without them
(`all`; same hooks, same behaviours), both with handlers that return nil: the first calls the handler exactly for the nodes of the
window that the filter matches, in the same order and with the same data; Wake and Sleep events come where the window begins and ends,
among these calls; and Navigate returns nil (it may return SkipAll for the Files subscription with a sleep condition). -/
theorem C25_session (hw : Windowed P u settings disk o h pre fs keep hib) (hp : Primed P { u with handler := some h₀ } settings₀ disk o₀ h₀ pre fs)
    (hu : o.Usual) (hhooks : o₀.hooks = o.hooks) (hbeh : o₀.behaviours = o.behaviours) (hskip : o₀.defects.skip = o.defects.skip)
    (hdistinct : fs.Distinct) (hnil : Handler.Nil h) (hnil₀ : Handler.Nil h₀) (x x' : κ) :
    let rep := walkPrime P (.using u) settings disk x
    let all := (walkPrime P (.using { u with handler := some h₀ }) settings₀ disk x').nodes
    rep.nodes = (window hib all).filter (keep.getD fun _ => true) ∧
    rep.tape.filter Obs.isHib = windowTape hib (keep.getD fun _ => true) all ∧
    (u.sub ≠ .files ∨ hib.sleepAt = none → rep.verdict = .done none) ∧
    (keep.isSome → ∀ d, ofKind d rep.nodes + rep.metrics.count (filteredMetric d) = ofKind d (window hib all)) := by
  obtain ⟨S', hst, hS, hcalm⟩ := windowed_started hw
  have hu₀ : o₀.Usual := ⟨by rw [hhooks]; exact hu.read, by rw [hhooks]; exact hu.sort, by rw [hskip]; exact hu.skip⟩
  have hnav : o₀.afterwards.nav u.sub = o.afterwards.nav u.sub := by
    simp only [Options.nav, Nav.mk.injEq, true_and]
    refine ⟨?_, ?_, ?_, ?_⟩
    · show o₀.behaviours.sortFilesFirst = _; rw [hbeh]; rfl
    · show o₀.behaviours.cascade.afterwards.depth = _; rw [hbeh]; rfl
    · show (fun l e => o₀.hooks.readDirectory.invoke (l, e)) = _; rw [hhooks]; rfl
    · show o₀.hooks.sort.invoke = _; rw [hhooks]; rfl
  obtain ⟨y', tree', -, -, h3', -⟩ := primed_walk hp x'
  have h1 := started_session hst x
  simp only [calmed_session S' _ _ _ _ pre fs hcalm] at h1
  intro rep all
  generalize hy : (o.afterwards.client h).listen x (.begin u.tree) = y at h1
  generalize S'.calmed = S at *
  have hord : S.Ordinary := by rw [hS]; exact Or.inl rfl
  have hsane : S.Sane := by rw [hS]; exact ⟨⟨fun _ => rfl, fun _ _ => ⟨rfl, rfl⟩⟩, fun hc => by cases hc⟩
  have hSn : S.nav = o.afterwards.nav u.sub := by rw [hS]; rfl
  have hSh : S.hiber.sleepAt = hib.sleepAt := by rw [hS]; rfl
  have hSw : ∀ l, window S.hiber l = window hib l := by rw [hS]; intro l; rfl
  have hSt : ∀ acc l, windowTape S.hiber acc l = windowTape hib acc l := by rw [hS]; intro acc l; rfl
  have hSf : S.filter.primary = keep.map .node := by rw [hS]; rfl
  have hacc : S.accepts = keep.getD fun _ => true := by
    funext n; cases keep <;> simp [Setup.accepts, hSf]
  have hC : (o.afterwards.client h).Accepts := ⟨hnil, hu.skip⟩
  have hsort : SortPermutes S.nav := by rw [hSn]; exact usual_sort hu _
  have hread : S.nav.read = defaultRead := by rw [hSn]; exact usual_read hu _
  have hall : all = invoked (walk S.nav (bareEnv (primedSetup o₀ u.sub) (o₀.client h₀) tree')
      ((primedSetup o₀ u.sub).world y' (fun _ => none)) pre fs).2.log := by
    rw [show all = _ from h3', hSn, ← hnav]
  have hwin : window S.hiber (invoked (S.session (o.afterwards.client h) y (fun _ => none) [] pre fs).2.log) = window S.hiber all ∧
      ∀ acc, windowTape S.hiber acc (invoked (S.session (o.afterwards.client h) y (fun _ => none) [] pre fs).2.log) = windowTape S.hiber acc all := by
    rw [hall]
    by_cases hf : u.sub = .files
    · exact window_tree_files S hord hsane _ hC y (fun _ => none) [] pre fs _ _ (bare_nil _ _ hnil₀) (usual_skip hu₀ _ _)
        (by rw [hSn]; exact hf) hsort hread hdistinct
    · exact window_tree S hord hsane _ hC y (fun _ => none) [] pre fs _ _ (bare_nil _ _ hnil₀) (usual_skip hu₀ _ _)
        (by rw [hSn]; exact hf) hsort (defaultRead_selects _ hread) hdistinct
  have hhits : rep.hits = (S.session (o.afterwards.client h) y (fun _ => none) [] pre fs).2.ext.hits := by
    simp only [rep, h1]
    cases (S.session (o.afterwards.client h) y (fun _ => none) [] pre fs).1 <;> rfl
  have hnodes : rep.nodes = (window hib all).filter (keep.getD fun _ => true) := by
    have := (C25_window S hord hsane (o.afterwards.client h) y (fun _ => none) [] pre fs).1
    rw [hwin.1, hacc, hSw] at this
    rw [← this]
    simp only [Report.nodes, hhits, World.called]
  obtain ⟨hnp, hfin⟩ := accepted_final hord hsane (o.afterwards.client h) hC y (fun _ => none) [] pre fs hsort hread hdistinct
  refine ⟨hnodes, ?_, ?_, ?_⟩
  · have := (C25_window S hord hsane (o.afterwards.client h) y (fun _ => none) [] pre fs).2
    rw [hwin.2, hacc, hSt] at this
    rw [← this]
    simp only [rep, h1]
    cases (S.session (o.afterwards.client h) y (fun _ => none) [] pre fs).1 <;> simp [Obs.isHib]
  · intro hc
    have := hfin (by rw [hSn, hSh]; exact hc)
    simp only [rep, h1, this]
  · intro hk d
    obtain ⟨f, rfl⟩ := Option.isSome_iff_exists.1 hk
    have hcons := (C22_conservation S hord hsane f hSf (o.afterwards.client h) y (fun _ => none) [] pre fs).1 d
    rw [C22_reach S hord hsane f hSf, hwin.1, hSw] at hcons
    have e0 : Metrics.count (fun _ => none) (filteredMetric d) = 0 := rfl
    rw [e0, Nat.zero_add] at hcons
    rw [← hcons]
    have hn : rep.nodes = (S.session (o.afterwards.client h) y (fun _ => none) [] pre fs).2.ext.called := by
      simp only [Report.nodes, hhits, World.called]
    rw [hn]
    simp only [rep, h1]
    cases hf : (S.session (o.afterwards.client h) y (fun _ => none) [] pre fs).1 with
    | panic => exact absurd hf hnp
    | done e => rfl

/-- **C21** A node filter decides which nodes the handler is called for, and nothing else: exactly the matching ones of those the
unfiltered session shows, in the same order and with the same data; Navigate returns the same. -/
theorem C21_session (f : Node → Bool) (hw : Windowed P u settings disk o h pre fs (some f) hib) (hno : hib.wakeAt = none ∧ hib.sleepAt = none)
    (hp : Primed P { u with handler := some h₀ } settings₀ disk o₀ h₀ pre fs)
    (hu : o.Usual) (hhooks : o₀.hooks = o.hooks) (hbeh : o₀.behaviours = o.behaviours) (hskip : o₀.defects.skip = o.defects.skip)
    (hdistinct : fs.Distinct) (hnil : Handler.Nil h) (hnil₀ : Handler.Nil h₀) (x x' : κ) :
    let rep := walkPrime P (.using u) settings disk x
    let all := walkPrime P (.using { u with handler := some h₀ }) settings₀ disk x'
    rep.nodes = all.nodes.filter f ∧ rep.verdict = .done none := by
  obtain ⟨h1, -, h3, -⟩ := C25_session P u settings settings₀ disk o o₀ h h₀ pre fs (some f) hib hw hp hu hhooks hbeh hskip hdistinct
    hnil hnil₀ x x'
  refine ⟨?_, h3 (.inr hno.2)⟩
  rw [h1]
  have : ∀ l, window hib l = l := by intro l; simp [window, hno.1, hno.2, upTo]
  rw [this]; rfl

/-- **C22** Every node of the window is either handed to the handler or counted as filtered out, files (`false`) and directories
(`true`) apart. -/
theorem C22_session (f : Node → Bool) (hw : Windowed P u settings disk o h pre fs (some f) hib)
    (hp : Primed P { u with handler := some h₀ } settings₀ disk o₀ h₀ pre fs)
    (hu : o.Usual) (hhooks : o₀.hooks = o.hooks) (hbeh : o₀.behaviours = o.behaviours) (hskip : o₀.defects.skip = o.defects.skip)
    (hdistinct : fs.Distinct) (hnil : Handler.Nil h) (hnil₀ : Handler.Nil h₀) (x x' : κ) (d : Bool) :
    let rep := walkPrime P (.using u) settings disk x
    let all := (walkPrime P (.using { u with handler := some h₀ }) settings₀ disk x').nodes
    ofKind d rep.nodes + rep.metrics.count (filteredMetric d) = ofKind d (window hib all) :=
  (C25_session P u settings settings₀ disk o o₀ h h₀ pre fs (some f) hib hw hp hu hhooks hbeh hskip hdistinct
    hnil hnil₀ x x').2.2.2 rfl d

end

/-! ### Cases: the hypotheses are met -/

/-- Not vacuous: wake at "b", sleep at "c", files only filtered out when they are called "y"; the window and the calls. -/
example :
    let P := sortPlatform
    let h := Demo.byPath fun _ => .ok none
    let u (sub) : Using Nat := { toyUsing sub with handler := some h }
    let wake : FilterDef := .plain { type := .regex, pattern := "b" }
    let sleep : FilterDef := .plain { type := .regex, pattern := "c" }
    let nodef : FilterDef := .plain { type := .regex, pattern := "y", negate := true }
    let settings := settingsOf P [some (.filterWake (some wake)), some (.filterSleep (some sleep)), some (.filter { node := some nodef } none)]
    let shown (sub) := (walkPrime P (.using (u sub)) settings (diskOf [] Demo.fs) 0)
    (∀ sub, sub ≠ .undefined → ∃ o keep hib, Windowed P (u sub) settings (diskOf [] Demo.fs) o h [] Demo.fs (some keep) hib ∧ o.Usual ∧
      hib.wakeAt.isSome ∧ hib.sleepAt.isSome ∧ (defaultOptions P).hooks = o.hooks ∧ (defaultOptions P).behaviours = o.behaviours ∧
      (defaultOptions P).defects.skip = o.defects.skip) ∧
    (∀ sub, sub ≠ .undefined → Primed P { u sub with handler := some h } [] (diskOf [] Demo.fs) (defaultOptions P) h [] Demo.fs) ∧
    (shown .universal).nodes.map (fun n => n.path) = [["r", "a", "b"], ["r", "a", "b", "z"], ["r", "a", "x"]] ∧
    (shown .universal).metrics.count .filesFilteredOut = 1 ∧ (shown .universal).verdict = .done none ∧
    (shown .universal).tape.filterMap (fun o => match o with | .note .wake => some "WAKE" | .note .sleep => some "SLEEP" | .call n => some n.name | _ => none)
      = ["WAKE", "b", "z", "x", "SLEEP"] := by
  intro P h u wake sleep nodef settings shown
  refine ⟨?_, ?_, ?_⟩
  · intro sub hs
    have key : ∃ o F G K, getOptions P settings = (o, none) ∧ o.filter.custom = none ∧ o.filter.node = some nodef ∧ o.filter.nodeActive = true ∧
        newFilter P.engine nodef o.filter = .ok (some F) ∧ o.hibernate.wakeAt = some wake ∧ o.hibernate.sleepAt = some sleep ∧
        newFilter P.engine wake o.filter = .ok (some G) ∧ newFilter P.engine sleep o.filter = .ok (some K) ∧
        o.filter.child = none ∧ o.filter.sample = none ∧ o.sampling.type = .undefined ∧ (∀ r, o.hooks.queryStatus.invoke r = r) ∧
        o.Usual ∧ (defaultOptions P).hooks = o.hooks ∧ (defaultOptions P).behaviours = o.behaviours ∧
        (defaultOptions P).defects.skip = o.defects.skip :=
      ⟨_, _, _, _, rfl, rfl, rfl, rfl, rfl, rfl, rfl, rfl, rfl, rfl, rfl, rfl, fun _ => rfl,
        ⟨fun _ => rfl, fun l => (insertSort_sorts _ l).1, fun _ _ _ => rfl⟩, rfl, rfl, rfl⟩
    obtain ⟨o, F, G, K, e1, e2, e3, e4, e5, e6, e7, e8, e9, e10, e11, e12, e13, e14, e15, e16, e17⟩ := key
    refine ⟨o, F.predicate P.engine, ⟨some (G.predicate P.engine), some (K.predicate P.engine), o.hibernate.inclusiveWake, o.hibernate.inclusiveSleep, fun _ => false, fun _ => false⟩,
      ⟨rfl, e1, e10, e11, e12, ⟨some F, .inr (.inr ⟨e2, nodef, F, e3, e4, e5, rfl⟩), fun _ h => by cases h; exact newFilter_safe e5 (by rw [e2]; intro _ h; cases h) (fun _ => rfl), rfl⟩,
        .inr ⟨wake, G, e6, e8, newFilter_safe e8 (by rw [e2]; intro _ h; cases h) (fun _ => rfl), rfl⟩,
        .inr ⟨sleep, K, e7, e9, newFilter_safe e9 (by rw [e2]; intro _ h; cases h) (fun _ => rfl), rfl⟩, rfl, rfl,
        hs, rfl, rfl, diskOf_holds Demo.distinct _ _ (.here [] Demo.fs), e13⟩, e14, rfl, rfl, e15, e16, e17⟩
  · intro sub hs
    exact Demo.primed sub hs _ _ _ Demo.distinct rfl rfl _
  · decide +kernel

end Traverse
