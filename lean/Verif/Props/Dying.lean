import Verif.Proofs.Dying
import Verif.Props.Api2
/-
Node filters that panic (C17, C53).
-/
namespace Traverse
variable {κ : Type}

/-- Settings with a node filter, which may panic; no child filter, no sampling, no hibernation. -/
structure Vetted (P : Platform κ) (u : Using κ) (settings : List (Option (Setting κ))) (disk : Disk) (o : Options κ)
    (h : κ → Parcel → κ × Reply) (pre : Path) (fs : FS) (F : Filter) : Prop where
  noOptions : u.o = none
  options : getOptions P settings = (o, none)
  child : o.filter.child = none
  sampling : o.sampling.type = .undefined
  filter : o.filter.Asks P.engine (some F)
  wake : o.hibernate.wakeAt = none
  sleep : o.hibernate.sleepAt = none
  sub : u.sub ≠ .undefined
  handler : u.handler = some h
  tree : u.tree = pre ++ [fs.name]
  disk : disk u.tree = .ok fs
  status : ∀ r, o.hooks.queryStatus.invoke r = r

/-- What is built of them. -/
def vettedSetup (E : Engine) (o : Options κ) (sub : Subscription) (F : Filter) : Setup :=
  { nav := o.afterwards.nav sub, filter := ⟨some (.node (F.predicate E)), none, F.dies E⟩,
    hiber := { inclusiveWake := o.hibernate.inclusiveWake, inclusiveSleep := o.hibernate.inclusiveSleep } }

theorem vetted_started {P : Platform κ} {u settings disk o h pre fs F} (hw : Vetted P u settings disk o h pre fs F) :
    Started P u settings disk (vettedSetup P.engine o u.sub F) o.afterwards h pre fs := by
  refine ⟨?_, hw.handler, hw.tree, hw.disk, hw.status⟩
  have hne : u.tree ≠ [] := by rw [hw.tree]; simp
  have hv : u.validate = none := by simp [Using.validate, hne, hw.sub, hw.handler]
  have hpp : primaryPlatform P (.using u) settings = (o, none) := by simp [primaryPlatform, hw.noOptions, hv, hw.options]
  have e1 : o.afterwards.filter = o.filter := rfl
  have e2 : o.afterwards.hibernate = o.hibernate := rfl
  have e3 : o.afterwards.sampling = o.sampling := rfl
  have hsa : o.sampling.active = false := by simp [SamplingOptions.active, hw.sampling]
  have hr : registerFilter P.engine o.afterwards = .ok (⟨some (.node (F.predicate P.engine)), none, F.dies P.engine⟩, o.afterwards) := by
    rcases hw.filter with ⟨_, _, h3⟩ | ⟨g, h1, h2, h3⟩ | ⟨h1, d, F, h2, h3, h4, h5⟩
    · cases h3
    · cases h3
      simp [registerFilter, createPrimary, createChild, e1, h1, h2, hw.child]
    · cases h5
      simp [registerFilter, createPrimary, createChild, e1, h1, h2, h3, h4, hw.child]
  have hh : initHibernation P.engine o.afterwards = .ok (vettedSetup P.engine o u.sub F).hiber := by
    simp [initHibernation, makeTrigger, e2, hw.wake, hw.sleep, vettedSetup]
  simp only [buildPrimary, hpp, buildRest, hw.sub, if_false, hr, hh, initSampling, e3, hsa]
  simp only [Bool.false_eq_true, if_false, e3, hsa]
  rfl

theorem first_same {α : Type} (p : α → Bool) {b before after : List α} {m n : α} (hb : ∀ k ∈ b, p k = false) (hm : p m = true)
    (hbefore : ∀ k ∈ before, p k = false) (hn : p n = true) (h : b ++ [m] <+: before ++ n :: after) : b = before ∧ m = n := by
  induction b generalizing before with
  | nil =>
    cases before with
    | nil => simp at h; exact ⟨rfl, h⟩
    | cons x l =>
      simp at h; subst h
      rw [hbefore m (by simp)] at hm; cases hm
  | cons x b ih =>
    cases before with
    | nil =>
      simp at h
      have := hb n (by simp [h.1])
      rw [hn] at this; cases this
    | cons z l =>
      rw [List.cons_append, List.cons_append, List.cons_prefix_cons] at h
      obtain ⟨rfl, h2⟩ := h
      obtain ⟨r1, r2⟩ := ih (fun k hk => hb k (by simp [hk])) (fun k hk => hbefore k (by simp [hk])) h2
      exact ⟨by rw [r1], r2⟩

theorem vetted_dies {P : Platform κ} {u : Using κ} {settings : List (Option (Setting κ))} {disk : Disk} {o : Options κ}
    {h : κ → Parcel → κ × Reply} {pre : Path} {fs : FS} {F : Filter}
    (hw : Vetted P u settings disk o h pre fs F) (hu : o.Usual)
    (hdistinct : fs.Distinct) (hsub : u.sub ≠ .files) (hnil : Handler.Nil h) (x : κ) (before after : List Node) (n : Node)
    (hitems : before ++ n :: after = (items (o.afterwards.nav u.sub) [] pre 0 (prep (o.afterwards.nav u.sub) fs)).map (·.node))
    (hbefore : ∀ m ∈ before, F.isMatch P.engine m.view ≠ none) (hdies : F.isMatch P.engine n.view = none) :
    let rep := walkPrime P (.using u) settings disk x
    rep.nodes = before.filter (fun m => F.isMatch P.engine m.view = some true) ∧
    (n.path ≠ u.tree → ∃ k a, rep.verdict = .done (some (o.defects.panic k a).2.err) ∧ rep.complete = true ∧
      a.tree = u.tree ∧ a.sub = u.sub ∧ a.currentPath = n.path.dropLast ∧ a.isDir = true ∧
      (a.depth : Int) = (a.currentPath.length : Int) - u.tree.length ∧
      ∀ d, a.metrics.count (invokedMetric d) = ofKind d rep.nodes) ∧
    (n.path = u.tree → rep.verdict = .panic ∧ rep.nodes = [] ∧ rep.complete = false) := by
  have hs := vetted_started hw
  have h1 := started_session hs x
  simp only at h1
  intro rep
  generalize hS : vettedSetup P.engine o u.sub F = S at *
  have hnav : S.nav = o.afterwards.nav u.sub := by rw [← hS]; rfl
  rw [← hnav] at hitems
  have hSh : S.hiber.active = false := by rw [← hS]; rfl
  have hSf : S.filter = ⟨some (.node (F.predicate P.engine)), none, F.dies P.engine⟩ := by rw [← hS]; rfl
  have hSr : S.resume = none := by rw [← hS]; rfl
  have hsort : SortPermutes S.nav := by rw [hnav]; exact usual_sort hu _
  have hread : ReadSelects S.nav := by rw [hnav]; exact defaultRead_selects _ (usual_read hu _)
  have hns : S.nav.sub ≠ .files := by rw [hnav]; exact hsub
  -- the session
  generalize hy : (o.afterwards.client h).listen x (.begin u.tree) = y at h1
  have hinv := dyingInv_session S hSr hSh (by rw [hSf]; rfl) (by rw [hSf]) (o.afterwards.client h) hnil y (fun _ => none) [] pre fs
  have hans : ∀ m r, Ev.invoke m r ∈ (S.session (o.afterwards.client h) y (fun _ => none) [] pre fs).2.log → r = .ok none ∨ r = .panic := by
    intro m r hm
    have := hinv.answers _ (mem_calls.2 hm)
    simp only at this
    rw [this]; split <;> simp
  obtain ⟨g1, g2⟩ := walk_holding_log S.nav _ _ pre fs hns hsort hread hdistinct
    (fun w m re => by show (o.defects.skip w.client m re).2.1 = _; rw [hu.skip]) hans
  rw [← hitems] at g1 g2
  have hd : ∀ m, S.filter.dies m = true ↔ F.isMatch P.engine m.view = none := by
    intro m; rw [hSf]; simp [Filter.dies]
  have hpan : ∃ m, (m, .panic) ∈ calls (S.session (o.afterwards.client h) y (fun _ => none) [] pre fs).2.log := by
    apply Classical.byContradiction
    intro hno
    have hall' := (g2 (fun m hm => hno ⟨m, hm⟩)).1
    have hmem : n ∈ invoked (S.session (o.afterwards.client h) y (fun _ => none) [] pre fs).2.log := by
      show n ∈ invoked (walk S.nav _ _ pre fs).2.log
      rw [hall']; simp
    obtain ⟨⟨m, r⟩, hm, rfl⟩ := List.mem_map.1 hmem
    have := hinv.answers _ hm
    simp only at this
    rw [if_pos ((hd m).2 hdies)] at this
    exact hno ⟨m, by rw [← this]; exact hm⟩
  obtain ⟨m, hm⟩ := hpan
  have hrun := walk_run S.nav (S.env (o.afterwards.client h) (pre ++ [fs.name]) []) (S.world y (fun _ => none)) pre fs
  have hma := (mem_acts_iff (l := (S.session (o.afterwards.client h) y (fun _ => none) [] pre fs).2.log) (ev := .invoke m .panic) rfl).2 (mem_calls.1 hm)
  have hlast : ∃ b, calls (S.session (o.afterwards.client h) y (fun _ => none) [] pre fs).2.log = b ++ [(m, .panic)] ∧ ∀ c ∈ b, c.2 ≠ .panic := by
    have hcl : ∀ es : List Ev, (∀ ev ∈ es, ev.Clean) → ∀ c ∈ calls es, c.2 ≠ .panic := by
      rintro es he ⟨k, r⟩ hc rfl
      exact he _ (mem_calls.1 hc)
    have hin : ∀ k es tail, (∀ ev ∈ es, ev.Clean) → (∀ q, Ev.invoke q .panic ∈ tail → q = k) →
        acts (S.session (o.afterwards.client h) y (fun _ => none) [] pre fs).2.log = es ++ tail → m = k := by
      intro k es tail he ht hx
      rw [hx] at hma
      rcases List.mem_append.1 hma with hq | hq
      · exact (he _ hq).elim
      · exact ht _ hq
    rcases hrun.cleanUp with hc | ⟨es, k, he, hc⟩ | ⟨es, k, cur, d, r, he, hc⟩
    · exact (hc _ hma).elim
    · have := hin k es _ hc (by simp) he
      subst this
      refine ⟨calls es, ?_, hcl es hc⟩
      rw [← calls_acts]
      refine Eq.trans (congrArg calls he) ?_
      simp [calls]
    · have := hin k es _ hc (by simp) he
      subst this
      refine ⟨calls es, ?_, hcl es hc⟩
      rw [← calls_acts]
      refine Eq.trans (congrArg calls he) ?_
      simp [calls]
  obtain ⟨b, hb, hbn⟩ := hlast
  have hbl : ∀ k ∈ b.map Prod.fst, S.filter.dies k = false := by
    intro k hk
    obtain ⟨c, hc, rfl⟩ := List.mem_map.1 hk
    have := hinv.answers c (by rw [hb]; simp [hc])
    cases hx : S.filter.dies c.1
    · rfl
    · rw [hx] at this; exact absurd this (hbn c hc)
  have hmd : S.filter.dies m = true := by
    have := hinv.answers _ hm
    simp only at this
    cases hx : S.filter.dies m
    · rw [hx] at this; cases this
    · rfl
  have hinvk : invoked (S.session (o.afterwards.client h) y (fun _ => none) [] pre fs).2.log = b.map Prod.fst ++ [m] := by
    simp [invoked, hb]
  have hsame : b.map Prod.fst = before ∧ m = n := by
    refine first_same (fun k => S.filter.dies k) (after := after) hbl hmd (fun k hk => ?_) ((hd n).2 hdies) (by rw [← hinvk]; exact g1)
    cases hx : S.filter.dies k
    · rfl
    · exact absurd ((hd k).1 hx) (hbefore k hk)
  obtain ⟨hbb, rfl⟩ := hsame
  have hhits : rep.hits = (S.session (o.afterwards.client h) y (fun _ => none) [] pre fs).2.ext.hits := by
    simp only [rep, h1]
    cases (S.session (o.afterwards.client h) y (fun _ => none) [] pre fs).1 <;> rfl
  have hcalled : rep.nodes = (S.session (o.afterwards.client h) y (fun _ => none) [] pre fs).2.ext.called := by
    simp only [Report.nodes, hhits, World.called]
  have hnodes : rep.nodes = before.filter (fun m => F.isMatch P.engine m.view = some true) := by
    rw [hcalled, hinv.called, hinvk, hbb, List.filter_append]
    have h0 : [m].filter (fun n => !S.filter.dies n && S.accepts n) = [] := by simp [hmd]
    rw [h0, List.append_nil]
    apply List.filter_congr
    intro k _
    have hk : S.filter.dies k = (F.isMatch P.engine k.view).isNone := by rw [hSf]; rfl
    have hk2 : S.accepts k = F.predicate P.engine k := by simp [Setup.accepts, hSf]
    rw [hk, hk2]
    unfold Filter.predicate
    cases F.isMatch P.engine k.view with
    | none => rfl
    | some v => cases v <;> rfl
  refine ⟨hnodes, ?_, ?_⟩
  · intro hroot
    have hr' : m.path ≠ pre ++ [fs.name] := by rw [← hs.tree]; exact hroot
    obtain ⟨bf, cur, r, q1, q2, q3, q4, q5⟩ := C17_panic_rescued_partial S.nav _ (S.world y (fun _ => none)) pre fs m hm hr'
    obtain ⟨a, parent, s1, s2, s3, s4, s5, s6, s7, s8, s9, s10, -⟩ := C18_saved_state S (o.afterwards.client h) y (fun _ => none) [] pre fs
      hsort hread m hm hr'
    obtain ⟨k, hk⟩ := rescueInv_session S (o.afterwards.client h) y (fun _ => none) [] pre fs a (by rw [s1]; rfl)
    have hkr : (o.defects.panic k a).2 = r := hk (bf ++ [.invoke m .panic]) cur (m.depth - 1) r (by
      refine Eq.trans q1 ?_
      simp)
    have hfin : (S.session (o.afterwards.client h) y (fun _ => none) [] pre fs).1 = .done (some r.err) := q5
    refine ⟨k, a, ?_, ?_, ?_, ?_, s5, s7, ?_, ?_⟩
    · simp only [rep, h1, hfin, hkr]
    · simp only [rep, h1, hfin]
    · rw [s3, hs.tree]
    · rw [s4, hnav]; rfl
    · rw [s9, hs.tree]; simp
    · intro d
      rw [s10 d, hcalled]
      exact Nat.zero_add _
  · intro hroot
    have hdep : ∀ it ∈ items S.nav [] pre 0 (prep S.nav fs), (0 : Int) ≤ it.node.depth := by
      intro it hit
      obtain ⟨p1, p2⟩ := items_path S.nav _ [] pre 0 it hit
      have := p1.length_le
      simp at this; omega
    have hfin : (S.session (o.afterwards.client h) y (fun _ => none) [] pre fs).1 = .panic := by
      rcases hrun.panicked hma hdep with ⟨-, hf, -⟩ | ⟨hd0, -⟩
      · exact hf
      · exfalso
        obtain ⟨it, hit, rfl⟩ := hrun.invoke_mem hma
        obtain ⟨p1, p2⟩ := items_path S.nav _ [] pre 0 it hit
        rw [hroot, hs.tree] at p2
        simp at p2; omega
    have hb0 : before = [] := by
      have hnd := (items_preOrder S.nav (prep S.nav fs) (prep_distinct S.nav hsort hread fs hdistinct) [] pre 0).nodup
      have hpaths := congrArg (List.map (fun k : Node => k.path)) hitems
      have hhead : ∀ j ∈ ((items S.nav [] pre 0 (prep S.nav fs)).map (·.node)).head?, j.path = pre ++ [fs.name] := by
        intro j hj
        have hname := (prep_entry S.nav fs).1
        rcases ht : prep S.nav fs with ⟨e, re, fl, ds, kids⟩
        rw [ht] at hj hname
        simp only [items] at hj
        split at hj
        · simp at hj
        · simp at hj
          rw [← hj]
          simp [mkNode]
          exact hname
      cases before with
      | nil => rfl
      | cons z l =>
        exfalso
        have hz : z.path = pre ++ [fs.name] := hhead z (by rw [← hitems]; simp)
        rw [show ((items S.nav [] pre 0 (prep S.nav fs)).map (·.node.path)) = List.map (fun k : Node => k.path) (List.map (·.node) (items S.nav [] pre 0 (prep S.nav fs))) by simp,
          ← hpaths] at hnd
        simp only [List.cons_append, List.map_cons, List.map_append, List.nodup_cons] at hnd
        exact hnd.1 (by rw [hz, ← hs.tree, ← hroot]; simp)
    exact ⟨by simp only [rep, h1, hfin], by rw [hnodes, hb0]; rfl, by simp only [rep, h1, hfin]⟩

/-- **C17** (partial: below the root; at the root the panic escapes) A node filter that panics. `all` are the nodes a session without
filter shows, with handlers that return nil; `n` is the first of them on which the filter panics. The handler is called for the nodes
before `n` that the filter matches. If `n` is not the root, Navigate returns the error made from what the panic handler answered to
the saved state `a`, which names the directory of `n` and counts these handler calls; the session is complete. -/
theorem C17_filter_partial (P : Platform κ) (u : Using κ) (settings settings₀ : List (Option (Setting κ))) (disk : Disk) (o o₀ : Options κ)
    (h h₀ : κ → Parcel → κ × Reply) (pre : Path) (fs : FS) (F : Filter)
    (hw : Vetted P u settings disk o h pre fs F) (hp : Primed P { u with handler := some h₀ } settings₀ disk o₀ h₀ pre fs)
    (hu : o.Usual) (hhooks : o₀.hooks = o.hooks) (hbeh : o₀.behaviours = o.behaviours) (hskip : o₀.defects.skip = o.defects.skip)
    (hdistinct : fs.Distinct) (hsub : u.sub ≠ .files) (hnil : Handler.Nil h) (hnil₀ : Handler.Nil h₀) (x x' : κ) (before after : List Node) (n : Node)
    (hall : (walkPrime P (.using { u with handler := some h₀ }) settings₀ disk x').nodes = before ++ n :: after)
    (hbefore : ∀ m ∈ before, F.isMatch P.engine m.view ≠ none) (hdies : F.isMatch P.engine n.view = none) :
    let rep := walkPrime P (.using u) settings disk x
    rep.nodes = before.filter (fun m => F.isMatch P.engine m.view = some true) ∧
    (n.path ≠ u.tree → ∃ k a, rep.verdict = .done (some (o.defects.panic k a).2.err) ∧ rep.complete = true ∧
      a.tree = u.tree ∧ a.sub = u.sub ∧ a.currentPath = n.path.dropLast ∧ a.isDir = true ∧
      (a.depth : Int) = (a.currentPath.length : Int) - u.tree.length ∧
      ∀ d, a.metrics.count (invokedMetric d) = ofKind d rep.nodes) ∧
    (n.path = u.tree → rep.verdict = .panic ∧ rep.nodes = [] ∧ rep.complete = false) := by
  have hnav₀ : o₀.afterwards.nav u.sub = o.afterwards.nav u.sub := by
    simp only [Options.nav, Nav.mk.injEq, true_and]
    refine ⟨?_, ?_, ?_, ?_⟩
    · show o₀.behaviours.sortFilesFirst = _; rw [hbeh]; rfl
    · show o₀.behaviours.cascade.afterwards.depth = _; rw [hbeh]; rfl
    · show (fun l e => o₀.hooks.readDirectory.invoke (l, e)) = _; rw [hhooks]; rfl
    · show o₀.hooks.sort.invoke = _; rw [hhooks]; rfl
  generalize hS : o.afterwards.nav u.sub = c at *
  have hsort : SortPermutes c := by rw [← hS]; exact usual_sort hu _
  have hread : ReadSelects c := by rw [← hS]; exact defaultRead_selects _ (usual_read hu _)
  have hns : c.sub ≠ .files := by rw [← hS]; exact hsub
  have hu₀ : o₀.Usual := ⟨by rw [hhooks]; exact hu.read, by rw [hhooks]; exact hu.sort, by rw [hskip]; exact hu.skip⟩
  obtain ⟨y', tree', -, -, h3', -⟩ := primed_walk hp x'
  have hitems : before ++ n :: after = (items c [] pre 0 (prep c fs)).map (·.node) := by
    rw [← hall, h3', hnav₀]
    exact ((walk_holding c _ _ pre fs hns hsort hread hdistinct (fun y m re => by rw [(usual_skip hu₀ _ _) y m re])
      (fun y m => Or.inl (bare_nil _ _ hnil₀ y m))).2.2.2 (fun m hm => by
        have := (walk_holding c _ _ pre fs hns hsort hread hdistinct (fun y m re => by rw [(usual_skip hu₀ _ _) y m re])
          (fun y m => Or.inl (bare_nil _ _ hnil₀ y m))).2.2.1 (fun y m => bare_nil _ _ hnil₀ y m) _ hm
        cases this)).1
  exact vetted_dies hw hu hdistinct hsub hnil x before after n (by rw [hS]; exact hitems) hbefore hdies

/-- **C53** A traversal whose root is a file, with a poly filter: the filter is asked about the root, which has no parent, and panics;
the panic is not rescued. The handler is not called. -/
theorem C53_session_root (P : Platform κ) (u : Using κ) (settings : List (Option (Setting κ))) (disk : Disk) (o : Options κ)
    (h : κ → Parcel → κ × Reply) (pre : Path) (fs : FS) (ff fd : Filter) (hw : Vetted P u settings disk o h pre fs (.poly ff fd))
    (hu : o.Usual) (hsub : u.sub ≠ .files) (hfile : fs.isDir = false) (hnil : Handler.Nil h) (x : κ) :
    let rep := walkPrime P (.using u) settings disk x
    rep.verdict = .panic ∧ rep.nodes = [] ∧ rep.complete = false := by
  rcases fs with ⟨name, ie, re⟩ | ⟨name, ie, re, kids⟩
  · generalize hc : o.afterwards.nav u.sub = c
    have hi : ([] : List Node) ++ mkNode c [] (pre ++ [name]) (.node ⟨name, false, ie⟩ re [] [] []) 1 :: [] =
        (items c [] pre 0 (prep c (.file name ie re))).map (·.node) := by
      have h0 : tooDeep c 0 = false := by
        simp only [tooDeep, Bool.and_eq_false_iff, decide_eq_false_iff_not]
        omega
      simp [prep, items, itemsList, h0]
    have := vetted_dies hw hu (by simp [FS.Distinct]) hsub hnil x [] [] _ (by rw [hc]; exact hi) (by simp) (by
      exact C53_root_file_panics _ _ _ _ rfl rfl)
    exact this.2.2 (by rw [hw.tree]; simp [mkNode, FS.name])
  · cases hfile

/-- Not vacuous: a custom filter that panics on anything called "x" and rejects what is called "b". -/
example :
    let P := sortPlatform
    let h := Demo.byPath fun _ => .ok none
    let u : Using Nat := { toyUsing .universal with handler := some h }
    let custom : CustomFilter := { isMatch := fun v => if v.name = "x" then none else some (v.name != "b") }
    let settings := settingsOf P [some (.filter { custom := some custom } none)]
    let rep := walkPrime P (.using u) settings (diskOf [] Demo.fs) 0
    let all := walkPrime P (.using u) [] (diskOf [] Demo.fs) 0
    (∃ o, Vetted P u settings (diskOf [] Demo.fs) o h [] Demo.fs (.custom custom.isMatch) ∧ o.Usual ∧ (defaultOptions P).hooks = o.hooks ∧
      (defaultOptions P).behaviours = o.behaviours ∧ (defaultOptions P).defects.skip = o.defects.skip) ∧
    Primed P u [] (diskOf [] Demo.fs) (defaultOptions P) h [] Demo.fs ∧
    (all.nodes.map (fun n => (n.path, custom.isMatch n.view))).take 6 = [(["r"], some true), (["r", "a"], some true), (["r", "a", "b"], some false),
      (["r", "a", "b", "y"], some true), (["r", "a", "b", "z"], some true), (["r", "a", "x"], none)] ∧
    rep.nodes.map (fun n => n.path) = [["r"], ["r", "a"], ["r", "a", "b", "y"], ["r", "a", "b", "z"]] ∧
    rep.verdict = .done (some (.saved "dest")) := by
  intro P h u custom settings rep all
  refine ⟨?_, Demo.primed .universal (by simp) _ _ _ Demo.distinct rfl rfl _, ?_⟩
  · have key : ∃ o, getOptions P settings = (o, none) ∧ o.filter.custom = some custom ∧ o.hibernate.wakeAt = none ∧ o.hibernate.sleepAt = none ∧
        o.filter.child = none ∧ o.sampling.type = .undefined ∧ (∀ r, o.hooks.queryStatus.invoke r = r) ∧
        o.Usual ∧ (defaultOptions P).hooks = o.hooks ∧ (defaultOptions P).behaviours = o.behaviours ∧
        (defaultOptions P).defects.skip = o.defects.skip :=
      ⟨_, rfl, rfl, rfl, rfl, rfl, rfl, fun _ => rfl, ⟨fun _ => rfl, fun l => (insertSort_sorts _ l).1, fun _ _ _ => rfl⟩, rfl, rfl, rfl⟩
    obtain ⟨o, e1, e2, e3, e4, e5, e6, e7, e8, e9, e10, e11⟩ := key
    exact ⟨o, ⟨rfl, e1, e5, e6, .inr (.inl ⟨custom, e2, rfl, rfl⟩), e3, e4, by simp [u, toyUsing], rfl, rfl, diskOf_holds Demo.distinct _ _ (.here [] Demo.fs), e7⟩,
      e8, e9, e10, e11⟩
  · decide +kernel

/-- Not vacuous: the root is a file. -/
example :
    let P := sortPlatform
    let h := Demo.byPath fun _ => .ok none
    let u : Using Nat := { toyUsing .universal with handler := some h }
    let file : FilterDef := .plain { type := .glob, pattern := "*.flac" }
    let dir : FilterDef := .plain { type := .regex, pattern := "rock" }
    let settings := settingsOf P [some (.filter { node := some (.both { type := .poly } file dir) } none)]
    let fs : FS := .file "r" none none
    (∃ o ff fd, Vetted P u settings (diskOf [] fs) o h [] fs (.poly ff fd) ∧ o.Usual) ∧
    (walkPrime P (.using u) settings (diskOf [] fs) 0).verdict = .panic := by
  intro P h u file dir settings fs
  refine ⟨?_, by decide +kernel⟩
  have key : ∃ o ff fd, getOptions P settings = (o, none) ∧ o.filter.custom = none ∧ o.filter.node = some (.both { type := .poly } file dir) ∧ o.filter.nodeActive = true ∧
      newFilter P.engine (.both { type := .poly } file dir) o.filter = .ok (some (.poly ff fd)) ∧ o.hibernate.wakeAt = none ∧ o.hibernate.sleepAt = none ∧
      o.filter.child = none ∧ o.sampling.type = .undefined ∧ (∀ r, o.hooks.queryStatus.invoke r = r) ∧ o.Usual :=
    ⟨_, _, _, rfl, rfl, rfl, rfl, rfl, rfl, rfl, rfl, rfl, fun _ => rfl, ⟨fun _ => rfl, fun l => (insertSort_sorts _ l).1, fun _ _ _ => rfl⟩⟩
  obtain ⟨o, ff, fd, e1, e2, e3, e4, e5, e6, e7, e8, e9, e10, e11⟩ := key
  exact ⟨o, ff, fd, ⟨rfl, e1, e8, e9, .inr (.inr ⟨e2, _, _, e3, e4, e5, rfl⟩), e6, e7, by simp [u, toyUsing], rfl, rfl, rfl, e10⟩, e11⟩

/-- **C17, conditions of hibernation that panic: cases.** A condition is asked in its own state only: that to wake while the session
waits, that to sleep while it is awake. Where it panics below the root, the panic is rescued, and the handler has been called as before
(a custom filter takes the place of node filter and conditions: these panic on "b"). At the root the panic escapes: a poly condition is
asked about a root that is a file; it is not asked if the session waits for something else. -/
theorem C17_trigger_cases :
    let P := sortPlatform
    let u : Using Nat := toyUsing .universal
    let run (fs : FS) (f : FilterOptions) (triggers : List (With Nat)) :=
      let rep := walkPrime P (.using u) (settingsOf P (some (.filter f none) :: triggers.map some)) (diskOf [] fs) 0
      (rep.verdict, rep.nodes.map (fun n => n.path))
    let own : FilterOptions := { custom := some { isMatch := fun v => if v.name = "b" then none else some true } }
    let never : FilterOptions := { custom := some { isMatch := fun v => if v.name = "b" then none else some false } }
    let regex : FilterDef := .plain { type := .regex, pattern := "q" }
    let poly : FilterDef := .both { type := .poly } (.plain { type := .glob, pattern := "*.flac" }) (.plain { type := .regex, pattern := "rock" })
    let file : FS := .file "r" none none
    run Demo.fs own [.filterWake (some regex)] = (.done (some (.saved "dest")), [["r"], ["r", "a"]]) ∧
    run Demo.fs never [.filterWake (some regex)] = (.done (some (.saved "dest")), []) ∧
    run Demo.fs never [.filterSleep (some regex)] = (.done (some (.saved "dest")), []) ∧
    run file { node := some poly } [.filterWake (some poly)] = (.panic, []) ∧
    run file { node := some poly } [.filterSleep (some poly)] = (.panic, []) ∧
    run file { node := some poly } [.filterWake (some regex), .filterSleep (some poly)] = (.done none, []) ∧
    run file { node := some poly } [.filterWake (some poly), .filterSleep (some regex)] = (.panic, []) := by
  decide +kernel

end Traverse
