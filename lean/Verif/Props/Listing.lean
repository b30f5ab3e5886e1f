import Verif.Props.Nap
import Verif.Props.Sort
/-
C23 and C51 for whole sessions.
-/
namespace Traverse

section
variable (P : Platform κ) (u : Using κ) (settings settings₀ : List (Option (Setting κ))) (disk disk' : Disk) (o o₀ : Options κ)
  (h h₀ : κ → Parcel → κ × Reply) (pre : Path) (fs fs' : FS) (hib : HiberOpts) (S : Setup)

/-- **C23** A session with a glob or regex filter definition `d` for nodes, and the session without it: the first calls the handler
exactly for those nodes of the second whose scope shares a bit with the definition's (all scopes, if none is given) and on whose name
the pattern's verdict, flipped by negation, is true; and for those out of scope unless IfNotApplicable says no. -/
theorem C23_session (d : FilterCore) (f : Node → Bool) (hw : Windowed P u settings disk o h pre fs (some f) hib)
    (hno : hib.wakeAt = none ∧ hib.sleepAt = none) (hcustom : o.filter.custom = none) (hnode : o.filter.node = some (.plain d))
    (htype : d.type = .glob ∨ d.type = .regex ∧ P.engine.compiles d.pattern = true)
    (hp : Primed P { u with handler := some h₀ } settings₀ disk o₀ h₀ pre fs)
    (hu : o.Usual) (hhooks : o₀.hooks = o.hooks) (hbeh : o₀.behaviours = o.behaviours) (hskip : o₀.defects.skip = o.defects.skip)
    (hdistinct : fs.Distinct) (hnil : Handler.Nil h) (hnil₀ : Handler.Nil h₀) (x x' : κ) :
    let rep := walkPrime P (.using u) settings disk x
    let all := walkPrime P (.using { u with handler := some h₀ }) settings₀ disk x'
    rep.nodes = all.nodes.filter fun n =>
      if (if d.scope = 0#32 then Scope.all else d.scope) &&& n.scope = 0#32 then d.ifNotApplicable != .no
      else (P.engine.verdict d.type d.pattern n.name ^^ d.negate) := by
  intro rep all
  have h1 := (C21_session P u settings settings₀ disk o o₀ h h₀ pre fs hib f hw hno hp hu hhooks hbeh hskip hdistinct hnil hnil₀ x x').1
  rw [show rep.nodes = _ from h1]
  refine List.filter_congr fun n _ => ?_
  obtain ⟨F, hF, -, hk⟩ := hw.filter
  obtain ⟨g, hg1, hg2⟩ := C23_scope_and_negation P.engine d o.filter hcustom htype
  rcases hF with ⟨-, hn, -⟩ | ⟨c, hc, -⟩ | ⟨-, d', G, hd, -, hG, rfl⟩
  · rw [hnode] at hn; cases hn
  · rw [hcustom] at hc; cases hc
  · rw [hnode] at hd
    cases hd
    rw [hg1] at hG
    cases hG
    simp only [Option.map_some, Option.some.injEq] at hk
    rw [hk]
    simp only [Filter.predicate, hg2]
    rfl

/-- **C51** Universal and Files, whatever filters, triggers and handlers: two disks whose directories differ in the order of their
listings only give the same session, in every respect. -/
theorem C51_session (key : String → String) (hs : Started P u settings disk S o h pre fs) (hs' : Started P u settings disk' S o h pre fs')
    (hsub : u.sub = .universal ∨ u.sub = .files) (hread : (o.nav u.sub).read = defaultRead) (hsort : SortsBy key (o.nav u.sub).sort)
    (hshuffled : FS.Shuffled fs fs') (hkeys : fs.KeysDiffer key) (x : κ) :
    walkPrime P (.using u) settings disk x = walkPrime P (.using u) settings disk' x := by
  have hnav := (primary_ready hs.built).2.1
  have h1 := started_session hs x
  have h2 := started_session hs' x
  have hn : fs'.name = fs.name := by cases hshuffled <;> rfl
  have hprep : prep S.nav fs = prep S.nav fs' := by
    rw [hnav]
    exact prep_shuffled key _ hsort hread (by show u.sub ≠ _; rcases hsub with h | h <;> simp [h]) (by show u.sub ≠ _; rcases hsub with h | h <;> simp [h]) fs' fs hshuffled hkeys
  have hses : ∀ y, S.session (o.client h) y (fun _ => none) [] pre fs = S.session (o.client h) y (fun _ => none) [] pre fs' := by
    intro y
    simp only [Setup.session, walk, hprep, hn]
  simp only at h1 h2
  rw [h1, h2, hses]

/-- **C51** Every subscription, handlers that return nil: the same nodes in the same order. -/
theorem C51_session_order (key : String → String) (hp : Primed P u settings disk o h pre fs) (hp' : Primed P u settings disk' o h pre fs')
    (hu : o.Usual) (hsort : SortsBy key o.hooks.sort.invoke) (hshuffled : FS.Shuffled fs fs') (hkeys : fs.KeysDiffer key)
    (hd : fs.Distinct) (hd' : fs'.Distinct) (hnil : Handler.Nil h) (x x' : κ) :
    (walkPrime P (.using u) settings disk x).nodes.map Node.toNodeInfo = (walkPrime P (.using u) settings disk' x').nodes.map Node.toNodeInfo := by
  obtain ⟨y, tree, -, -, h3, -⟩ := primed_walk hp x
  obtain ⟨y', tree', -, -, h3', -⟩ := primed_walk hp' x'
  rw [h3, h3']
  have hread := usual_read hu u.sub
  by_cases hf : u.sub = .files
  · have hprep := prep_shuffled key (o.afterwards.nav u.sub) hsort hread (by show u.sub ≠ _; simp [hf]) (by show u.sub ≠ _; simp [hf]) fs' fs hshuffled hkeys
    rw [(walk_accepting _ _ _ pre fs (usual_sort hu _) (defaultRead_selects _ hread) (bare_nil _ _ hnil) (usual_skip hu _ _) hd (fun _ => hread)).1,
      (walk_accepting _ _ _ pre fs' (usual_sort hu _) (defaultRead_selects _ hread) (bare_nil _ _ hnil) (usual_skip hu _ _) hd' (fun _ => hread)).1, hprep]
  · obtain ⟨order, -, -, -, hord⟩ := C51_same_order key (o.afterwards.nav u.sub) pre fs fs' hsort hread hshuffled hkeys hd hd'
    rw [(hord _ _ (bare_nil _ _ hnil) (usual_skip hu _ _) hf).1, (hord _ _ (bare_nil _ _ hnil) (usual_skip hu _ _) hf).2]

/-- **C51** Siblings of the same kind are handed out in ascending order of their keys, whatever filters, triggers and handlers. -/
theorem C51_session_ascending (key : String → String) (hs : Started P u settings disk S o h pre fs) (hread : (o.nav u.sub).read = defaultRead)
    (hsort : SortsBy key (o.nav u.sub).sort) (hd : fs.Distinct) (x : κ) (i j : Node) (p : Path) (m n : String)
    (hij : [i, j].Sublist (walkPrime P (.using u) settings disk x).nodes) (hi : i.path = p ++ [m]) (hj : j.path = p ++ [n])
    (hkind : i.isDir = j.isDir) : ¬ key n < key m := by
  obtain ⟨y, -, -, h3⟩ := started_walk hs x
  have hnav := (primary_ready hs.built).2.1
  exact C51_ascending key S.nav _ (S.world y (fun _ => none)) pre fs (hnav ▸ hsort) (defaultRead_selects _ (hnav ▸ hread)) hd i j p m n (hij.trans h3) hi hj hkind

end

/-- Not vacuous, C51: two listings of one directory tree, the default options, and the order in which both are walked. -/
example :
    let P : Platform Nat := { sortPlatform with engine := { toyEngine with lower := Demo.lower } }
    let h := Demo.byPath fun _ => .ok none
    let u (sub) : Using Nat := { toyUsing sub with handler := some h }
    let shown (sub) (f : FS) := (walkPrime P (.using (u sub)) [] (diskOf [] f) 0).nodes.map fun n => n.path
    (∀ sub f, sub ≠ .undefined → f = Demo.fs1 ∨ f = Demo.fs2 → Primed P (u sub) [] (diskOf [] f) (defaultOptions P) h [] f ∧
      ∃ S, Started P (u sub) [] (diskOf [] f) S (defaultOptions P).afterwards h [] f) ∧
    (defaultOptions P).Usual ∧ (∀ sub, SortsBy Demo.lower ((defaultOptions P).afterwards.nav sub).sort) ∧
    shown .universal Demo.fs1 = [["r"], ["r", "d"], ["r", "d", "X"], ["r", "d", "y"], ["r", "a"], ["r", "B"]] ∧
    shown .universal Demo.fs2 = shown .universal Demo.fs1 := by
  intro P h u shown
  refine ⟨?_, ⟨fun _ => rfl, fun l => (insertSort_sorts _ l).1, fun _ _ _ => rfl⟩, fun sub => insertSort_sorts _, ?_⟩
  · intro sub f hs hf
    have hn : f.name = "r" := by rcases hf with rfl | rfl <;> rfl
    have hd : f.Distinct := by
      rcases hf with rfl | rfl
      · simp [Demo.fs1, FS.Distinct, FS.DistinctL, FS.name]
      · simp [Demo.fs2, FS.Distinct, FS.DistinctL, FS.name]
    have hp : Primed P (u sub) [] (diskOf [] f) (defaultOptions P) h [] f :=
      ⟨rfl, rfl, ⟨rfl, rfl, rfl, rfl, rfl, rfl, rfl⟩, hs, rfl, by simp [u, toyUsing, hn],
        diskOf_holds hd _ _ (by have := FS.At.here [] f; rwa [hn] at this), fun _ => rfl⟩
    exact ⟨hp, _, primed_started hp⟩
  · decide +kernel

/-- Not vacuous, C23: a negated filter for files only. -/
example :
    let P := sortPlatform
    let h := Demo.byPath fun _ => .ok none
    let u (sub) : Using Nat := { toyUsing sub with handler := some h }
    let d : FilterCore := { type := .regex, pattern := "y", negate := true, scope := Scope.file }
    let settings := settingsOf P [some (.filter { node := some (.plain d) } none)]
    (∀ sub, sub ≠ .undefined → ∃ o f hib, Windowed P (u sub) settings (diskOf [] Demo.fs) o h [] Demo.fs (some f) hib ∧
      hib.wakeAt = none ∧ hib.sleepAt = none ∧ o.filter.custom = none ∧ o.filter.node = some (.plain d) ∧ o.Usual ∧
      (defaultOptions P).hooks = o.hooks ∧ (defaultOptions P).behaviours = o.behaviours ∧ (defaultOptions P).defects.skip = o.defects.skip) ∧
    P.engine.compiles d.pattern = true ∧
    (walkPrime P (.using (u .universal)) settings (diskOf [] Demo.fs) 0).nodes.map (fun n => n.path) =
      [["r"], ["r", "a"], ["r", "a", "b"], ["r", "a", "b", "z"], ["r", "a", "x"], ["r", "c"], ["r", "c", "w"], ["r", "f"], ["r", "g"]] := by
  intro P h u d settings
  refine ⟨?_, by decide +kernel, by decide +kernel⟩
  intro sub hs
  have key : ∃ o F, getOptions P settings = (o, none) ∧ o.filter.custom = none ∧ o.filter.node = some (.plain d) ∧ o.filter.nodeActive = true ∧
      newFilter P.engine (.plain d) o.filter = .ok (some F) ∧ o.hibernate.wakeAt = none ∧ o.hibernate.sleepAt = none ∧
      o.filter.child = none ∧ o.filter.sample = none ∧ o.sampling.type = .undefined ∧ (∀ r, o.hooks.queryStatus.invoke r = r) ∧
      o.Usual ∧ (defaultOptions P).hooks = o.hooks ∧ (defaultOptions P).behaviours = o.behaviours ∧
      (defaultOptions P).defects.skip = o.defects.skip :=
    ⟨_, _, rfl, rfl, rfl, rfl, rfl, rfl, rfl, rfl, rfl, rfl, fun _ => rfl,
      ⟨fun _ => rfl, fun l => (insertSort_sorts _ l).1, fun _ _ _ => rfl⟩, rfl, rfl, rfl⟩
  obtain ⟨o, F, e1, e2, e3, e4, e5, e6, e7, e8, e9, e10, e11, e12, e13, e14, e15⟩ := key
  exact ⟨o, F.predicate P.engine, ⟨none, none, o.hibernate.inclusiveWake, o.hibernate.inclusiveSleep, fun _ => false, fun _ => false⟩,
    ⟨rfl, e1, e8, e9, e10, ⟨some F, .inr (.inr ⟨e2, _, F, e3, e4, e5, rfl⟩), fun _ h => by cases h; exact newFilter_safe e5 (by rw [e2]; intro _ h; cases h) (fun _ => rfl), rfl⟩,
      .inl ⟨e6, rfl⟩, .inl ⟨e7, rfl⟩, rfl, rfl, hs, rfl, rfl, diskOf_holds Demo.distinct _ _ (.here [] Demo.fs), e11⟩, rfl, rfl, e2, e3, e12, e13, e14, e15⟩

end Traverse
