import Verif.Proofs.Informed
import Verif.Props.Unreadable
/-
C54 in sessions of any configuration, prime and resumed: nothing but the errors on the nodes tells that entry information fails.
-/
namespace Traverse
variable {κ : Type}

/-! ### Built in filters do not look at entry errors -/

def Filter.Blind : Filter → Prop
  | .custom f => ∀ v, f v = f v.noInfoErr
  | .poly a b => a.Blind ∧ b.Blind
  | _ => True

theorem view_parent_noInfoErr (v : View) : v.noInfoErr.parent = v.parent.map View.noInfoErr := by
  obtain ⟨i, ps⟩ := v
  cases ps <;> rfl

theorem isMatch_blind (E : Engine) (f : Filter) : f.Blind → ∀ v : View, f.isMatch E v = f.isMatch E v.noInfoErr := by
  induction f with
  | regex b => intro _ v; rfl
  | glob b => intro _ v; rfl
  | globEx b g =>
    intro _ v
    have e : g.isDirectoryMatch E v.noInfoErr = g.isDirectoryMatch E v := by
      simp only [GlobSpec.isDirectoryMatch, view_parent_noInfoErr]
      rcases v.parent with _ | p <;> rfl
    simp only [Filter.isMatch, e]
    rfl
  | custom f => intro h v; exact h v
  | poly a b iha ihb =>
    intro h v
    simp only [Filter.isMatch, view_parent_noInfoErr]
    rw [show v.noInfoErr.isDir = v.isDir from rfl]
    split
    · rfl
    · cases v.parent with
      | none => rfl
      | some p =>
        simp only [Option.map_some, ← ihb h.2 p, ← iha h.1 v]

theorem buildNative_blind (E : Engine) (d : FilterCore) (f : Filter) (h : buildNative E d = .ok (some f)) : f.Blind := by
  unfold buildNative at h
  simp only at h
  split at h
  · split at h
    · cases h
    · cases h
    · split at h
      · cases h
      · cases h; trivial
  · split at h
    · cases h; trivial
    · cases h
  · cases h; trivial
  · cases h
  · cases h
  · cases h

theorem buildConstituent_blind (E : Engine) (fo : FilterOptions) (hc : fo.InfoBlind) (d : FilterCore) (f : Filter)
    (h : buildConstituent E fo d = .ok f) : f.Blind := by
  unfold buildConstituent at h
  split at h
  · rename_i c hcu
    split at h
    · cases h
    · cases h; exact hc c hcu
  · split at h
    · rename_i hb; cases h; exact buildNative_blind E d _ hb
    · cases h
    · cases h
    · cases h

theorem newFilter_blind (E : Engine) (d : FilterDef) (fo : FilterOptions) (hc : fo.InfoBlind) (f : Filter)
    (h : newFilter E d fo = .ok (some f)) : f.Blind := by
  unfold newFilter at h
  split at h
  · cases h
  · cases h
  · rename_i g hg
    cases h
    unfold buildPoly at hg
    split at hg
    · cases hg
    · split at hg
      · cases hg
      · split at hg
        · cases hg
        · split at hg
          · cases hg
          · cases hg
          · rename_i ff hff
            split at hg
            · cases hg
            · split at hg
              · cases hg
              · cases hg
              · rename_i fd hfd
                cases hg
                exact ⟨buildConstituent_blind E fo hc _ _ hff, buildConstituent_blind E fo hc _ _ hfd⟩
  · split at h
    · rename_i c hcu; cases h; exact hc c hcu
    · exact buildNative_blind E _ _ h

theorem predicate_blind (E : Engine) (f : Filter) (h : f.Blind) (n : Node) : f.predicate E n = f.predicate E n.noInfoErr := by
  simp only [Filter.predicate]
  rw [isMatch_blind E f h]
  rfl

theorem dies_blind (E : Engine) (f : Filter) (h : f.Blind) (n : Node) : f.dies E n = f.dies E n.noInfoErr := by
  simp only [Filter.dies]
  rw [isMatch_blind E f h]
  rfl

theorem newChild_blind (E : Engine) (d : ChildDef) (f : Entry → Bool) (h : newChild E d = .ok (some f)) (e : Entry) : f e = f e.noInfoErr := by
  unfold newChild at h
  split at h
  · split at h
    · cases h; rfl
    · cases h
  · cases h; rfl
  · cases h
  · cases h
  · cases h
  · cases h

theorem makeTrigger_blind (E : Engine) (fo : FilterOptions) (hc : fo.InfoBlind) (d : Option FilterDef) (f : Filter)
    (h : makeTrigger E fo d = .ok (some f)) : f.Blind := by
  unfold makeTrigger at h
  split at h
  · cases h
  · split at h
    · rename_i hf; cases h; exact newFilter_blind E _ fo hc _ hf
    · cases h
    · cases h
    · cases h

theorem initHibernation_blind (E : Engine) (o : Options κ) (hc : o.filter.InfoBlind) (h : HiberOpts) (hh : initHibernation E o = .ok h) :
    h.InfoBlind := by
  unfold initHibernation at hh
  split at hh
  · cases hh
  · cases hh
  · rename_i w hw
    split at hh
    · cases hh
    · cases hh
    · rename_i s hs
      cases hh
      refine ⟨?_, ?_, ?_, ?_⟩
      · intro f hf n
        cases w with
        | none => cases hf
        | some g => cases hf; exact predicate_blind E g (makeTrigger_blind E _ hc _ g hw) n
      · intro f hf n
        cases s with
        | none => cases hf
        | some g => cases hf; exact predicate_blind E g (makeTrigger_blind E _ hc _ g hs) n
      · intro n
        cases w with
        | none => rfl
        | some g => exact dies_blind E g (makeTrigger_blind E _ hc _ g hw) n
      · intro n
        cases s with
        | none => rfl
        | some g => exact dies_blind E g (makeTrigger_blind E _ hc _ g hs) n

theorem createPrimary_blind (E : Engine) (o : Options κ) (hc : o.filter.InfoBlind) (p : Option (Primary × (Node → Bool))) (o1 : Options κ)
    (h : createPrimary E o = .ok (p, o1)) :
    o1.filter = o.filter ∧ (∀ f d, p = some (.node f, d) → ∀ n, f n = f n.noInfoErr) ∧ (∀ q, p = some q → ∀ n, q.2 n = q.2 n.noInfoErr) := by
  unfold createPrimary at h
  split at h
  · rename_i c hcu
    split at h
    · cases h
    · cases h
      have hb : (Filter.custom c.isMatch).Blind := hc c hcu
      refine ⟨rfl, ?_, ?_⟩
      · intro f d hf n; cases hf; exact predicate_blind E _ hb n
      · intro q hq n; cases hq; exact dies_blind E _ hb n
  · split at h
    · split at h
      · cases h
      · split at h
        · rename_i g hg
          cases h
          have hb := newFilter_blind E _ _ hc g hg
          refine ⟨rfl, ?_, ?_⟩
          · intro f d hf n; cases hf; exact predicate_blind E _ hb n
          · intro q hq n; cases hq; exact dies_blind E _ hb n
        · cases h
        · cases h
        · cases h
    · split at h
      · split at h
        · cases h
          refine ⟨rfl, ?_, ?_⟩
          · intro f d hf n; cases hf
          · intro q hq n; cases hq; rfl
        · cases h
        · cases h
        · cases h
      · cases h
        refine ⟨rfl, ?_, ?_⟩
        · intro f d hf; cases hf
        · intro q hq; cases hq

/-- Whatever is built from options whose custom filter does not look at entry errors does not look at them. -/
theorem built_blind (P : Platform κ) (sub : Subscription) (st : Option Strategy) (o₀ : Options κ) (S : Setup) (o : Options κ)
    (hb : buildRest P sub st o₀ = .ready S o) (hc : o.filter.InfoBlind) : S.InfoBlind := by
  unfold buildRest at hb
  split at hb
  · cases hb
  · split at hb
    · cases hb
    · cases hb
    · rename_i f o1 hf
      split at hb
      · cases hb
      · cases hb
      · rename_i h hh
        simp only [Built.ready.injEq] at hb
        obtain ⟨rfl, rfl⟩ := hb
        have hfil : (initSampling o1).filter = o1.filter := by unfold initSampling; split <;> rfl
        rw [hfil] at hc
        have hH := initHibernation_blind P.engine o1 hc h hh
        unfold registerFilter at hf
        split at hf
        · cases hf
        · cases hf
        · rename_i p o2 hp
          split at hf
          · cases hf
          · cases hf
          · rename_i c hcc
            simp only [Made.ok.injEq, Prod.mk.injEq] at hf
            obtain ⟨rfl, rfl⟩ := hf
            have hq := createPrimary_blind P.engine o₀ (by
              have : o2.filter = o₀.filter := by
                unfold createPrimary at hp
                split at hp
                · split at hp
                  · cases hp
                  · cases hp; rfl
                · split at hp
                  · split at hp
                    · cases hp
                    · split at hp
                      · cases hp; rfl
                      · cases hp
                      · cases hp
                      · cases hp
                  · split at hp
                    · split at hp
                      · cases hp; rfl
                      · cases hp
                      · cases hp
                      · cases hp
                    · cases hp; rfl
              rw [← this]; exact hc) p o2 hp
            refine ⟨hH, ?_, ?_, ?_⟩
            · intro g hg n
              rcases p with _ | ⟨q, d⟩
              · cases hg
              · cases hg; exact hq.2.1 g d rfl n
            · intro g hg e
              cases hg
              unfold createChild at hcc
              split at hcc
              · cases hcc
              · split at hcc
                · split at hcc
                  · rename_i hnc; cases hcc; exact newChild_blind _ _ _ hnc e
                  · cases hcc
                  · cases hcc
                  · cases hcc
                · cases hcc
            · intro n
              rcases p with _ | ⟨q, d⟩
              · rfl
              · exact hq.2.2 (q, d) rfl n

/-! ### Hooks that select by names and kinds -/

theorem defaultRead_byNames (c : Nav) (h : c.read = defaultRead) : ReadByNames c := by
  intro g hg l e
  rw [h]
  cases e with
  | some x => rfl
  | none =>
    have : (l.map g).filter (fun t => t.name != ".DS_Store") = (l.filter (fun t => t.name != ".DS_Store")).map g := by
      rw [List.filter_map]
      congr 1
      exact List.filter_congr (fun t _ => by simp only [Function.comp_apply, (hg t).1])
    simp only [defaultRead, this]

/-- With sampling, but without a sample filter, the read hook selects by names and kinds. -/
theorem sampledRead_byNames (c : Nav) (q : Quota) (h : c.read = sampledRead none (some q)) : ReadByNames c := by
  intro g hg l e
  have hd := defaultRead_byNames { c with read := defaultRead } rfl g hg l e
  have hfil : ∀ (k : Tree → Bool) (hk : ∀ t, k (g t) = k t) (l : List Tree), (l.map g).filter k = (l.filter k).map g := by
    intro k hk l; rw [List.filter_map]; congr 1; exact List.filter_congr (fun t _ => hk t)
  have hun : ∀ fs ds : List Tree, sampleUnion q (fs.map g) (ds.map g) = (sampleUnion q fs ds).map g := by
    intro fs ds
    simp only [sampleUnion, sampleFirst, sampleLast, List.length_map]
    split <;> simp only [List.map_append, List.map_take, List.map_drop]
  have hall : ∀ l e, c.read l e = sampleHook q (defaultRead l e) (defaultRead l e) := by
    intro l e
    rw [h]
    rfl
  rw [hall, hall]
  simp only at hd
  rw [hd]
  simp only [sampleHook]
  rw [hfil _ (fun t => by simp only [(hg t).2]), hfil _ (fun t => by simp only [(hg t).2]), hun]

/-! ### Sessions -/

theorem fault_forget (o : Options κ) (w : World κ) (p : Path) (e : Err) :
    o.fault (forgetWorld w) p e = (forgetWorld (o.fault w p e).1, (o.fault w p e).2) := rfl

/-- **C54** (any configuration) `disk'` is the disk on which obtaining entry information never fails. Whatever is configured — filters,
hibernation, sampling, a depth limit, sort and read hooks that go by names and kinds, listeners, skip, fault and panic handlers — as long as
the client's own handler, skip handler and custom filter do not look at entry errors: the session does in every respect what it does there,
up to those errors on the nodes. It returns the same, the client ends in the same state, the events, handler calls, metrics are the same. -/
theorem C54_session_nothing_else (P : Platform κ) (u : Using κ) (settings : List (Option (Setting κ))) (disk disk' : Disk) (S : Setup)
    (o : Options κ) (h : κ → Parcel → κ × Reply) (hb : buildPrimary P (.using u) settings = .ready S o) (hu : u.handler = some h)
    (hread : ReadByNames S.nav) (hsort : SortByNames S.nav) (hst : ∀ r, o.hooks.queryStatus.invoke r = r)
    (hcustom : o.filter.InfoBlind) (hh : ∀ k p, h k p = h k p.noInfoErr)
    (hskip : ∀ k n e, o.defects.skip k n e = o.defects.skip k n.noInfoErr e)
    (hd' : disk' u.tree = match disk u.tree with | .ok fs => .ok fs.informed | .error e => .error e) (x : κ) :
    walkPrime P (.using u) settings disk' x = (walkPrime P (.using u) settings disk x).noInfoErr := by
  have hS : S.InfoBlind := by
    have hb' := hb
    unfold buildPrimary at hb'
    split at hb'
    · cases hb'
    · exact built_blind P u.sub none _ S o hb' hcustom
  simp only [walkPrime, hb, Built.navigate, hu, Option.getD_some]
  have key := forget_top (forget_env S hS hsort (o.client h) hh hskip u.tree []) S.nav o.fault (fault_forget o)
    u.tree.dropLast u.tree (statOf S.nav o disk u.tree) ⟨0, (S.world x (fun _ => none)).publish (o.client h) (.begin u.tree), []⟩
  rw [← stat_informed S.nav hsort hread o hst disk disk' u.tree hd'] at key
  have hw : forgetSt forgetWorld ⟨0, (S.world x (fun _ => none)).publish (o.client h) (.begin u.tree), []⟩ =
      ⟨0, (S.world x (fun _ => none)).publish (o.client h) (.begin u.tree), []⟩ := by
    simp only [forgetSt, ← forget_publish, List.map_nil]
    rfl
  rw [hw] at key
  simp only [runTop]
  rw [key]
  generalize top S.nav (S.env (o.client h) u.tree []) o.fault u.tree.dropLast u.tree (statOf S.nav o disk u.tree)
    ⟨0, (S.world x (fun _ => none)).publish (o.client h) (.begin u.tree), []⟩ = T
  rcases T with ⟨e | _, s⟩
  · simp only [forgetSt, forget_publish, Report.noInfoErr]
    rfl
  · rfl

/-- **C54** (resumed) The same in a resumed session, whatever the strategy and the saved state. -/
theorem C54_resumed_nothing_else (P : Platform κ) (r : Relic κ) (settings : List (Option (Setting κ))) (files : String → Except Err Json)
    (disk disk' : Disk) (S : Setup) (o : Options κ) (h : κ → Parcel → κ × Reply) (a : Active) (hr : Resumed P r settings files S o h a)
    (hread : ReadByNames S.nav) (hsort : SortByNames S.nav) (hst : ∀ r, o.hooks.queryStatus.invoke r = r)
    (hcustom : o.filter.InfoBlind) (hh : ∀ k p, h k p = h k p.noInfoErr)
    (hskip : ∀ k n e, o.defects.skip k n e = o.defects.skip k n.noInfoErr e)
    (hd' : ∀ p, disk' p = match disk p with | .ok fs => .ok fs.informed | .error e => .error e) (x : κ) :
    walkResume P (.relic r) settings files disk' x = (walkResume P (.relic r) settings files disk x).noInfoErr := by
  obtain ⟨o₀, h1, h2⟩ := hr.built
  have hS : S.InfoBlind := built_blind P _ _ _ S o h2 hcustom
  simp only [walkResume, h1, h2, Built.resume, hr.handler, Option.getD_some]
  have hw : forgetWorld ((S.world x (if r.strategy = .spawn then a.metrics else fun _ => none)).publish (o.client h) (.begin a.tree)) =
      (S.world x (if r.strategy = .spawn then a.metrics else fun _ => none)).publish (o.client h) (.begin a.tree) := by
    rw [← forget_publish]
    rfl
  generalize (S.world x (if r.strategy = .spawn then a.metrics else fun _ => none)).publish (o.client h) (.begin a.tree) = w at hw
  have hstat : statOf S.nav o disk' = fun p => (statOf S.nav o disk p).informed :=
    funext fun p => stat_informed S.nav hsort hread o hst disk disk' p (hd' p)
  have henv := forget_env S hS hsort (o.client h) hh hskip a.tree a.currentPath
  have hw0 : ∀ d : Int, forgetSt forgetWorld (⟨d, w, []⟩ : St (World κ)) = ⟨d, w, []⟩ := by intro d; simp only [forgetSt, hw, List.map_nil]
  have key : resumeRun S o (o.client h) disk' r.strategy a w =
      ((resumeRun S o (o.client h) disk r.strategy a w).1, (resumeRun S o (o.client h) disk r.strategy a w).2.1,
        forgetSt forgetWorld (resumeRun S o (o.client h) disk r.strategy a w).2.2) := by
    by_cases hsp : r.strategy = .spawn
    · simp only [resumeRun, hsp, crown_legs]
      rw [legsOf_informed S.nav hsort hread disk disk' hd']
      have := forget_goLegs henv S.nav o.fault (fault_forget o) (statOf S.nav o disk)
        (legsOf S.nav disk a.tree a.currentPath.reverse true).1 ⟨a.depth, w, []⟩
      rw [← hstat, hw0] at this
      rw [this]
      rcases goLegs S.nav (S.env (o.client h) a.tree a.currentPath) o.fault (statOf S.nav o disk)
        (legsOf S.nav disk a.tree a.currentPath.reverse true).1 ⟨a.depth, w, []⟩ with ⟨(_ | e) | _, s⟩ <;> rfl
    · have : ∀ d, resumeRun S o (o.client h) d r.strategy a w =
          ((runTop S o (o.client h) d a.tree a.currentPath ⟨0, w, []⟩).1, true, (runTop S o (o.client h) d a.tree a.currentPath ⟨0, w, []⟩).2) := by
        intro d
        unfold resumeRun
        split
        · rename_i h0; exact absurd h0 hsp
        · rfl
      rw [this, this]
      simp only [runTop, hstat]
      have := forget_top henv S.nav o.fault (fault_forget o) a.tree.dropLast a.tree (statOf S.nav o disk a.tree) ⟨0, w, []⟩
      rw [hw0] at this
      rw [this]
  rw [key]
  rcases resumeRun S o (o.client h) disk r.strategy a w with ⟨e | _, c, s⟩
  · simp only [forgetSt, forget_publish, Report.noInfoErr]
    rfl
  · rfl

/-! ### Cases: the hypotheses are met -/

theorem insertSort_byNames (key : String → String) : ∀ ps : List (Tree × Tree), (∀ p ∈ ps, p.1.name = p.2.name ∧ p.1.isDir = p.2.isDir) →
    ∃ qs : List (Tree × Tree), qs.Perm ps ∧ insertSort key (ps.map Prod.fst) = qs.map Prod.fst ∧
      insertSort key (ps.map Prod.snd) = qs.map Prod.snd := by
  have hins : ∀ (p : Tree × Tree) (ps : List (Tree × Tree)), p.1.name = p.2.name → (∀ q ∈ ps, q.1.name = q.2.name) →
      ∃ qs : List (Tree × Tree), qs.Perm (p :: ps) ∧ insertBy key p.1 (ps.map Prod.fst) = qs.map Prod.fst ∧
        insertBy key p.2 (ps.map Prod.snd) = qs.map Prod.snd := by
    intro p ps hp
    induction ps with
    | nil => intro _; exact ⟨[p], .refl _, rfl, rfl⟩
    | cons q ps ih =>
      intro hq
      obtain ⟨qs, h1, h2, h3⟩ := ih (fun r hr => hq r (by simp [hr]))
      simp only [List.map_cons, insertBy]
      rw [hp, hq q (by simp)]
      by_cases hlt : key q.2.name < key p.2.name
      · rw [if_pos hlt, if_pos hlt]
        exact ⟨q :: qs, (h1.cons q).trans (List.Perm.swap _ _ _), by simp [h2], by simp [h3]⟩
      · rw [if_neg hlt, if_neg hlt]
        exact ⟨p :: q :: ps, .refl _, rfl, rfl⟩
  intro ps
  induction ps with
  | nil => intro _; exact ⟨[], .refl _, rfl, rfl⟩
  | cons p ps ih =>
    intro hp
    obtain ⟨qs, h1, h2, h3⟩ := ih (fun r hr => hp r (by simp [hr]))
    obtain ⟨rs, g1, g2, g3⟩ := hins p qs (hp p (by simp)).1 (fun r hr => (hp r (by simp [h1.mem_iff.1 hr])).1)
    refine ⟨rs, g1.trans (h1.cons p), ?_, ?_⟩
    · rw [← g2, ← h2]; rfl
    · rw [← g3, ← h3]; rfl

/-- Not vacuous, C54 of any configuration: a node filter, a wake condition and sampling; any subscription and handler. And what is seen of
the entries that fail in a session without all that. -/
example (g : Path → Reply) (sub : Subscription) (hsub : sub ≠ .undefined) :
    let P := sortPlatform
    let u : Using Nat := { toyUsing sub with handler := some (Demo.byPath g) }
    let settings := settingsOf P [some (.filterWake (some (.plain { type := .regex, pattern := "a" }))),
      some (.filter { node := some (.plain { type := .regex, pattern := "w", negate := true }) } none),
      some (.sampling { type := .slice, files := 1, dirs := 2 })]
    (∃ S o, buildPrimary P (.using u) settings = .ready S o ∧ S.sampling = true ∧ S.hiber.active = true ∧ S.filter.active = true ∧
      ReadByNames S.nav ∧ SortByNames S.nav ∧ (∀ r, o.hooks.queryStatus.invoke r = r) ∧ o.filter.InfoBlind ∧
      (∀ k p, Demo.byPath g k p = Demo.byPath g k p.noInfoErr) ∧
      (∀ k n e, o.defects.skip k n e = o.defects.skip k n.noInfoErr e)) ∧
    diskOf [] Demo.fsNoInfo u.tree = .ok Demo.fsNoInfo ∧ diskOf [] Demo.fsNoInfo.informed u.tree = .ok Demo.fsNoInfo.informed ∧
    (walkPrime P (.using { toyUsing .universal with handler := some (Demo.byPath Demo.quiet) }) [] (diskOf [] Demo.fsNoInfo) 0).nodes.map
      (fun n => (n.path, n.infoErr)) =
      [(["r"], none), (["r", "a"], some (.code 5)), (["r", "a", "x"], some (.code 6)), (["r", "f"], none)] := by
  intro P u settings
  refine ⟨?_, rfl, rfl, by decide +kernel⟩
  cases sub <;> first
    | exact absurd rfl hsub
    | exact ⟨_, _, rfl, rfl, rfl, rfl, sampledRead_byNames _ ⟨1, 2, false⟩ rfl, insertSort_byNames _, fun _ => rfl,
        (fun c hc => by cases hc), fun _ _ => rfl, fun _ _ _ => rfl⟩

/-- Not vacuous, C54 resumed: any strategy. -/
example (st : Strategy) (g : Path → Reply) (sub : Subscription) (hsub : sub ≠ .undefined) :
    let P := sortPlatform
    let r := Demo.relic st g
    let files := Demo.saved ["r", "a"] sub
    let a := (savedAt ["r"] ["r", "a"] sub).active
    let settings := settingsOf P [some (.filterSleep (some (.plain { type := .regex, pattern := "x" }))),
      some (.filter { node := some (.plain { type := .regex, pattern := "y", negate := true }) } none)]
    (∃ S o, Resumed P r settings files S o (Demo.byPath g) a ∧ ReadByNames S.nav ∧ SortByNames S.nav ∧
      (∀ r, o.hooks.queryStatus.invoke r = r) ∧ o.filter.InfoBlind ∧ (∀ k p, Demo.byPath g k p = Demo.byPath g k p.noInfoErr) ∧
      (∀ k n e, o.defects.skip k n e = o.defects.skip k n.noInfoErr e)) ∧
    (walkResume P (.relic (Demo.relic .spawn Demo.quiet)) [] (Demo.saved ["r", "a"] .universal) (diskOf [] Demo.fsNoInfo) 0).nodes.map
      (fun n => (n.path, n.infoErr)) =
      [(["r", "a"], none), (["r", "a", "x"], some (.code 6)), (["r", "f"], none)] := by
  intro P r files a settings
  obtain ⟨doc, h1, h2⟩ := roundTrip P (defaultOptions P) (savedAt ["r"] ["r", "a"] sub)
  have hf : files r.from = .ok doc := by
    simp only [P] at h1
    simp only [files, Demo.saved, savedFile, h1]
  refine ⟨?_, by decide +kernel⟩
  have hplat : resumePlatform P r settings (.ok doc) = .ok ((bindOptions (fromJSON P (toJSON (defaultOptions P))) settings).1, a) := by
    simp only [resumePlatform, h2, bindOptions, settings, applyAll_settings]
    rfl
  have key : ∃ S o, buildRest P a.sub (some st) (bindOptions (fromJSON P (toJSON (defaultOptions P))) settings).1.afterwards = .ready S o ∧
      ReadByNames S.nav ∧ SortByNames S.nav ∧ (∀ r, o.hooks.queryStatus.invoke r = r) ∧ o.filter.InfoBlind ∧
      (∀ k p, Demo.byPath g k p = Demo.byPath g k p.noInfoErr) ∧
      (∀ k n e, o.defects.skip k n e = o.defects.skip k n.noInfoErr e) := by
    cases sub <;> first
      | exact absurd rfl hsub
      | exact ⟨_, _, rfl, defaultRead_byNames _ rfl, insertSort_byNames _, fun _ => rfl, (fun c hc => by cases hc), fun _ _ => rfl,
          fun _ _ _ => rfl⟩
  obtain ⟨S, o, k1, k2⟩ := key
  exact ⟨S, o, ⟨rfl, _, by rw [hf]; exact hplat, k1⟩, k2⟩

end Traverse
