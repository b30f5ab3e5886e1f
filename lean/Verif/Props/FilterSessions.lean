import Verif.Props.Listing
import Verif.Props.Screened
/-
C23, C52 and C53 for whole sessions: what glob, regex, extended glob and poly definitions show of a session or of a resume by spawning.
-/
namespace Traverse

section
variable (P : Platform κ) (u : Using κ) (r r₀ : Relic κ) (settings settings₀ : List (Option (Setting κ))) (files files₀ : String → Except Err Json)
  (disk : Disk) (o o₀ : Options κ) (h h₀ : κ → Parcel → κ × Reply) (a : Active) (pre : Path) (fs : FS) (hib hib₀ : HiberOpts)

/-- **C23** (resumed by spawning) The resume with a glob or regex filter definition `d` for nodes, and the resume without it: the first calls
the handler exactly for those nodes of the second whose scope shares a bit with the definition's (all scopes, if none is given) and on whose
name the pattern's verdict, flipped by negation, is true; and for those out of scope unless IfNotApplicable says no. -/
theorem C23_resumed (d : FilterCore) (f : Node → Bool) (hw : Screened P r settings files o h a (some f) hib)
    (hno : hib.wakeAt = none ∧ hib.sleepAt = none) (hcustom : o.filter.custom = none) (hnode : o.filter.node = some (.plain d))
    (htype : d.type = .glob ∨ d.type = .regex ∧ P.engine.compiles d.pattern = true)
    (hp : Screened P r₀ settings₀ files₀ o₀ h₀ a none hib₀) (hno₀ : hib₀.wakeAt = none ∧ hib₀.sleepAt = none) (hhooks : o₀.hooks = o.hooks)
    (hbeh : o₀.behaviours = o.behaviours) (hskip : ∀ k n re, (o.defects.skip k n re).2 = (.none, none)) (hskip₀ : o₀.defects.skip = o.defects.skip)
    (hfault : ∀ k k' p e, (o.defects.fault k p e).2 = (o₀.defects.fault k' p e).2)
    (hnil : Handler.Nil h) (hnil₀ : Handler.Nil h₀) (x x' : κ) :
    let rep := walkResume P (.relic r) settings files disk x
    let all := walkResume P (.relic r₀) settings₀ files₀ disk x'
    rep.nodes = all.nodes.filter fun n =>
      if (if d.scope = 0#32 then Scope.all else d.scope) &&& n.scope = 0#32 then d.ifNotApplicable != .no
      else (P.engine.verdict d.type d.pattern n.name ^^ d.negate) := by
  intro rep all
  have h1 := (C21_resumed P r r₀ settings settings₀ files files₀ disk o o₀ h h₀ a hib hib₀ f hw hno hp hno₀ hhooks hbeh hskip hskip₀ hfault
    hnil hnil₀ x x').1
  rw [show rep.nodes = _ from h1]
  refine List.filter_congr fun n _ => ?_
  obtain ⟨F, hF, -, hk⟩ := hw.filter
  obtain ⟨g, hg1, hg2⟩ := C23_scope_and_negation P.engine d o.filter hcustom htype
  rcases hF with ⟨-, hn, -⟩ | ⟨c, hc, -⟩ | ⟨-, d', G, hd, -, hG, rfl⟩
  · rw [hnode] at hn; cases hn
  · rw [hcustom] at hc; cases hc
  · rw [hnode] at hd
    cases hd
    rw [hg1] at hG
    cases hG
    simp only [Option.map_some, Option.some.injEq] at hk
    rw [hk]
    simp only [Filter.predicate, hg2]
    rfl

/-- An extended glob definition, read: its pattern is `dir|items` (and perhaps another `|`, and more), of `dir` lower-cased `dirGlob` is what
comes before the first "/" and `dirExcl` what comes between the first and the next, and `items`, separated by commas, are read as `subs`. -/
structure FilterCore.ReadsAs (E : Engine) (d : FilterCore) (dirGlob dirExcl : List Char) (subs : List SubPattern) : Prop where
  type : d.type = .globEx
  pattern : ∃ (dir : List Char) (items : List (List Char)) (tail : List Char), d.pattern.toList = dir ++ '|' :: (joinWith ',' items ++ tail) ∧
    (tail = [] ∨ ∃ t, tail = '|' :: t) ∧ '|' ∉ dir ∧
    ((E.lower (String.ofList dir)).toList = dirGlob ∧ dirExcl = [] ∨
      ∃ more, (E.lower (String.ofList dir)).toList = dirGlob ++ '/' :: (dirExcl ++ more) ∧ '/' ∉ dirExcl ∧ (more = [] ∨ ∃ t, more = '/' :: t)) ∧
    '/' ∉ dirGlob ∧ Reads E items subs ∧ items ≠ []

/-- What such a definition says of a node: a file whose parent directory (if the walk knows one) is as asked is judged by the first sub-pattern
that decides, refused if none does, flipped if negated; anything else is let through unless IfNotApplicable says no. -/
def FilterCore.lets (E : Engine) (d : FilterCore) (dirGlob dirExcl : List Char) (subs : List SubPattern) (n : Node) : Bool :=
  if Scope.file &&& n.scope ≠ 0#32 ∧
      (∀ p ∈ n.parents.head?, E.glob (String.ofList dirGlob) (E.lower p.name) = true ∧ E.glob (String.ofList dirExcl) (E.lower p.name) = false) then
    ((subs.findSome? (SubPattern.decides E n.name)).getD false ^^ d.negate)
  else d.ifNotApplicable != .no

theorem parentOK_head (E : Engine) (g e : String) (n : Node) : parentOK E g e n.view ↔
    ∀ p ∈ n.parents.head?, E.glob g (E.lower p.name) = true ∧ E.glob e (E.lower p.name) = false := by
  unfold parentOK
  rcases hp : n.parents with _ | ⟨p, ps⟩
  · simp [View.parent, Node.view, hp]
  · have hv : n.view.parent = some { p with parents := ps } := by simp [View.parent, Node.view, hp]
    rw [hv]
    constructor
    · intro hh q hq
      simp only [List.head?_cons, Option.mem_def, Option.some.injEq] at hq
      subst hq
      exact hh _ rfl
    · intro hh q hq
      cases hq
      exact hh p rfl

theorem globEx_predicate {E : Engine} {d : FilterCore} {fo : FilterOptions} (hc : fo.custom = none) {dirGlob dirExcl subs}
    (hr : d.ReadsAs E dirGlob dirExcl subs) {F : Filter} (hF : newFilter E (.plain d) fo = .ok (some F)) (n : Node) :
    F.predicate E n = d.lets E dirGlob dirExcl subs n := by
  obtain ⟨dir, items, tail, h1, h2, h3, h4, h5, h6, h7⟩ := hr.pattern
  obtain ⟨g, hg1, hg2⟩ := C52_glob_ex E d fo hc hr.type dir dirGlob dirExcl items subs tail h1 h2 h3 h4 h5 h6 h7
  rw [hg1] at hF
  cases hF
  simp only [Filter.predicate, hg2, Option.getD_some, FilterCore.lets, parentOK_head]
  rfl

theorem globEx_built {E : Engine} {d : FilterCore} {dirGlob dirExcl subs} (hr : d.ReadsAs E dirGlob dirExcl subs) (fo : FilterOptions) (hc : fo.custom = none) :
    ∃ F, newFilter E (.plain d) fo = .ok (some F) := by
  obtain ⟨dir, items, tail, h1, h2, h3, h4, h5, h6, h7⟩ := hr.pattern
  obtain ⟨g, hg1, -⟩ := C52_glob_ex E d fo hc hr.type dir dirGlob dirExcl items subs tail h1 h2 h3 h4 h5 h6 h7
  exact ⟨g, hg1⟩

/-- **C52** A session with an extended glob definition for nodes, and the session without it: the first calls the handler exactly for those
nodes of the second which the definition, read, lets through. -/
theorem C52_session (d : FilterCore) (dirGlob dirExcl : List Char) (subs : List SubPattern) (f : Node → Bool)
    (hw : Windowed P u settings disk o h pre fs (some f) hib)
    (hno : hib.wakeAt = none ∧ hib.sleepAt = none) (hcustom : o.filter.custom = none) (hnode : o.filter.node = some (.plain d))
    (hreads : d.ReadsAs P.engine dirGlob dirExcl subs)
    (hp : Primed P { u with handler := some h₀ } settings₀ disk o₀ h₀ pre fs)
    (hu : o.Usual) (hhooks : o₀.hooks = o.hooks) (hbeh : o₀.behaviours = o.behaviours) (hskip : o₀.defects.skip = o.defects.skip)
    (hdistinct : fs.Distinct) (hnil : Handler.Nil h) (hnil₀ : Handler.Nil h₀) (x x' : κ) :
    let rep := walkPrime P (.using u) settings disk x
    let all := walkPrime P (.using { u with handler := some h₀ }) settings₀ disk x'
    rep.nodes = all.nodes.filter (d.lets P.engine dirGlob dirExcl subs) := by
  intro rep all
  have h1 := (C21_session P u settings settings₀ disk o o₀ h h₀ pre fs hib f hw hno hp hu hhooks hbeh hskip hdistinct hnil hnil₀ x x').1
  rw [show rep.nodes = _ from h1]
  refine List.filter_congr fun n _ => ?_
  obtain ⟨F, hF, -, hk⟩ := hw.filter
  rcases hF with ⟨-, hn, -⟩ | ⟨c, hc, -⟩ | ⟨-, d', G, hd, -, hG, rfl⟩
  · rw [hnode] at hn; cases hn
  · rw [hcustom] at hc; cases hc
  · rw [hnode] at hd
    cases hd
    simp only [Option.map_some, Option.some.injEq] at hk
    rw [hk, globEx_predicate hcustom hreads hG]

/-- **C52** (resumed by spawning) The same of a resume with the definition and the resume without it. Missing: there the walk knows no parent of
the saved path and of the later siblings of it and of the directories above it, so that for files among them any directory pattern is taken to
be met (`C52_unparented`). -/
theorem C52_resumed_partial (d : FilterCore) (dirGlob dirExcl : List Char) (subs : List SubPattern) (f : Node → Bool)
    (hw : Screened P r settings files o h a (some f) hib)
    (hno : hib.wakeAt = none ∧ hib.sleepAt = none) (hcustom : o.filter.custom = none) (hnode : o.filter.node = some (.plain d))
    (hreads : d.ReadsAs P.engine dirGlob dirExcl subs)
    (hp : Screened P r₀ settings₀ files₀ o₀ h₀ a none hib₀) (hno₀ : hib₀.wakeAt = none ∧ hib₀.sleepAt = none) (hhooks : o₀.hooks = o.hooks)
    (hbeh : o₀.behaviours = o.behaviours) (hskip : ∀ k n re, (o.defects.skip k n re).2 = (.none, none)) (hskip₀ : o₀.defects.skip = o.defects.skip)
    (hfault : ∀ k k' p e, (o.defects.fault k p e).2 = (o₀.defects.fault k' p e).2)
    (hnil : Handler.Nil h) (hnil₀ : Handler.Nil h₀) (x x' : κ) :
    let rep := walkResume P (.relic r) settings files disk x
    let all := walkResume P (.relic r₀) settings₀ files₀ disk x'
    rep.nodes = all.nodes.filter (d.lets P.engine dirGlob dirExcl subs) := by
  intro rep all
  have h1 := (C21_resumed P r r₀ settings settings₀ files files₀ disk o o₀ h h₀ a hib hib₀ f hw hno hp hno₀ hhooks hbeh hskip hskip₀ hfault
    hnil hnil₀ x x').1
  rw [show rep.nodes = _ from h1]
  refine List.filter_congr fun n _ => ?_
  obtain ⟨F, hF, -, hk⟩ := hw.filter
  rcases hF with ⟨-, hn, -⟩ | ⟨c, hc, -⟩ | ⟨-, d', G, hd, -, hG, rfl⟩
  · rw [hnode] at hn; cases hn
  · rw [hcustom] at hc; cases hc
  · rw [hnode] at hd
    cases hd
    simp only [Option.map_some, Option.some.injEq] at hk
    rw [hk, globEx_predicate hcustom hreads hG]

/-- **C52, what is false of resumes by spawning**: only files of directories called "b" are asked for. The session shows y and z, both in /r/a/b.
Saved in /r/a and resumed by spawning it shows /r/f and /r/g as well, which are files of /r. -/
theorem C52_unparented :
    let P := sortPlatform
    let d : FilterCore := { type := .globEx, pattern := "b|.!mp3", ifNotApplicable := .no }
    let settings := settingsOf P [some (.filter { node := some (.plain d) } none)]
    let whole := walkPrime P (.using { toyUsing .universal with handler := some (Demo.byPath Demo.quiet) }) settings (diskOf [] Demo.fs) 0
    let again := walkResume P (.relic (Demo.relic .spawn Demo.quiet)) settings (Demo.saved ["r", "a"] .universal) (diskOf [] Demo.fs) 0
    whole.nodes.map (fun n => n.path) = [["r", "a", "b", "y"], ["r", "a", "b", "z"]] ∧
    again.nodes.map (fun n => n.path) = [["r", "a", "b", "y"], ["r", "a", "b", "z"], ["r", "f"], ["r", "g"]] ∧
    again.verdict = .done none := by
  intro P d settings whole again
  exact ⟨by decide +kernel, by decide +kernel, by decide +kernel⟩

/-- **C19, what is false of filtered sessions**: the fastward link asks about a node only when the node filter has let it through. Saved in /r/a,
resumed with a filter for what is called "b", a resume by fastward is never woken: it shows nothing, returns nil and says it is complete.
The resume by spawning shows /r/a/b. -/
theorem C19_filtered_out :
    let P := sortPlatform
    let d : FilterCore := { type := .regex, pattern := "b" }
    let settings := settingsOf P [some (.filter { node := some (.plain d) } none)]
    let again (s) := walkResume P (.relic (Demo.relic s Demo.quiet)) settings (Demo.saved ["r", "a"] .universal) (diskOf [] Demo.fs) 0
    (again .spawn).nodes.map (fun n => n.path) = [["r", "a", "b"]] ∧
    (again .fastward).nodes = [] ∧ (again .fastward).verdict = .done none ∧ (again .fastward).complete = true := by
  intro P d settings again
  exact ⟨by decide +kernel, by decide +kernel, by decide +kernel, by decide +kernel⟩

theorem buildPoly_poly {E : Engine} {d : FilterDef} {fo : FilterOptions} {g : Filter} (h : buildPoly E d fo = .ok (some g)) :
    ∃ a b, g = .poly a b := by
  unfold buildPoly at h
  repeat' (split at h <;> try cases h)
  exact ⟨_, _, rfl⟩

theorem newFilter_poly {E : Engine} {c : FilterCore} {file dir : FilterDef} {fo : FilterOptions} {g : Filter} (hc : fo.custom = none)
    (ht : c.type = .poly) (h : newFilter E (.both c file dir) fo = .ok (some g)) : ∃ a b, g = .poly a b := by
  have hn : buildNative E (FilterDef.both c file dir).core = .ok none := by simp [buildNative, FilterDef.core, ht]
  simp only [newFilter, hc, hn] at h
  cases hb : buildPoly E (.both c file dir) fo with
  | ok x =>
    rw [hb] at h
    cases x with
    | none => cases h
    | some y => cases h; exact buildPoly_poly hb
  | err e => rw [hb] at h; cases h
  | panic => rw [hb] at h; cases h

/-- **C53** A session with a poly definition for nodes, on a tree whose root is a directory, and the session without it: the first calls the
handler for every directory of the second, and for those files which the definition for files accepts and whose parent the definition for
directories accepts. -/
theorem C53_session (c : FilterCore) (file dir : FilterDef) (ff fd : Filter) (f : Node → Bool)
    (hw : Windowed P u settings disk o h pre fs (some f) hib)
    (hno : hib.wakeAt = none ∧ hib.sleepAt = none) (hcustom : o.filter.custom = none) (hnode : o.filter.node = some (.both c file dir))
    (ht : c.type = .poly)
    (hf : newFilter P.engine (.plain (file.core.restrict Scope.file Scope.directory)) o.filter = .ok (some ff))
    (hd : newFilter P.engine (.plain (dir.core.restrict Scope.directory Scope.file)) o.filter = .ok (some fd))
    (hfp : file.core.type ≠ .poly) (hdp : dir.core.type ≠ .poly)
    (hp : Primed P { u with handler := some h₀ } settings₀ disk o₀ h₀ pre fs)
    (hu : o.Usual) (hhooks : o₀.hooks = o.hooks) (hbeh : o₀.behaviours = o.behaviours) (hskip : o₀.defects.skip = o.defects.skip)
    (hdistinct : fs.Distinct) (hnil : Handler.Nil h) (hnil₀ : Handler.Nil h₀) (x x' : κ) :
    let rep := walkPrime P (.using u) settings disk x
    let all := walkPrime P (.using { u with handler := some h₀ }) settings₀ disk x'
    rep.nodes = all.nodes.filter fun n =>
      n.isDir || (ff.isMatch P.engine n.view == some true && n.view.parent.any fun p => fd.isMatch P.engine p == some true) := by
  intro rep all
  have h1 := (C21_session P u settings settings₀ disk o o₀ h h₀ pre fs hib f hw hno hp hu hhooks hbeh hskip hdistinct hnil hnil₀ x x').1
  rw [show rep.nodes = _ from h1]
  refine List.filter_congr fun n _ => ?_
  obtain ⟨F, hF, -, hk⟩ := hw.filter
  obtain ⟨g, hg1, hg2, hg3⟩ := C53_poly P.engine c file dir o.filter ff fd hcustom ht hnode hf hd hfp hdp
  have hpoly := newFilter_poly hcustom ht hg1
  rcases hF with ⟨-, hn, -⟩ | ⟨c, hc, -⟩ | ⟨-, d', G, hd', -, hG, rfl⟩
  · rw [hnode] at hn; cases hn
  · rw [hcustom] at hc; cases hc
  · rw [hnode] at hd'
    cases hd'
    rw [hg1] at hG
    cases hG
    simp only [Option.map_some, Option.some.injEq] at hk
    rw [hk]
    show (g.isMatch P.engine n.view).getD false = _
    cases hdir : n.isDir with
    | true => rw [hg2 n.view hdir]; rfl
    | false =>
      cases hpar : n.view.parent with
      | none =>
        obtain ⟨a, b, rfl⟩ := hpoly
        rw [C53_root_file_panics _ _ _ _ hdir hpar]
        simp
      | some p =>
        obtain ⟨a, b, ha, hb, hab⟩ := hg3 n.view p hdir hpar
        rw [hab, ha]
        simp [hb]
end

/-- A tree of music. -/
def Demo.music : FS :=
  .dir "m" none none [
    .dir "Rock" none none [.file "a.flac" none none, .file "b.mp3" none none],
    .dir "liverock" none none [.file "c.flac" none none],
    .dir "pop" none none [.file "d.flac" none none]]

/-- Not vacuous, C52: anything but mp3 of directories like rock, without live. -/
example :
    let P := sortPlatform
    let h := Demo.byPath Demo.quiet
    let u : Using Nat := { toyUsing .universal with tree := ["m"], handler := some h }
    let d : FilterCore := { type := .globEx, pattern := "*rock/liverock|.!mp3,cover.jpg", ifNotApplicable := .no }
    let settings := settingsOf P [some (.filter { node := some (.plain d) } none)]
    (∃ o f hib, Windowed P u settings (diskOf [] Demo.music) o h [] Demo.music (some f) hib ∧
      hib.wakeAt = none ∧ hib.sleepAt = none ∧ o.filter.custom = none ∧ o.filter.node = some (.plain d) ∧ o.Usual ∧
      (defaultOptions P).hooks = o.hooks ∧ (defaultOptions P).behaviours = o.behaviours ∧ (defaultOptions P).defects.skip = o.defects.skip) ∧
    Primed P { u with handler := some h } [] (diskOf [] Demo.music) (defaultOptions P) h [] Demo.music ∧
    d.ReadsAs P.engine "*rock".toList "liverock".toList [⟨[], true, "mp3".toList⟩, ⟨"cover".toList, false, "jpg".toList⟩] ∧
    (walkPrime P (.using u) settings (diskOf [] Demo.music) 0).nodes.map (fun n => n.path) = [["m", "Rock", "a.flac"]] := by
  intro P h u d settings
  have hdis : Demo.music.Distinct := by simp [Demo.music, FS.Distinct, FS.DistinctL, FS.name]
  have hreads : d.ReadsAs P.engine "*rock".toList "liverock".toList [⟨[], true, "mp3".toList⟩, ⟨"cover".toList, false, "jpg".toList⟩] := by
    refine ⟨rfl, "*rock/liverock".toList, [".!mp3".toList, "cover.jpg".toList], [], by decide, .inl rfl, by decide,
      .inr ⟨[], by decide, by decide, .inl rfl⟩, by decide, ?_, by decide⟩
    refine .cons ⟨by decide, by decide, (fun h => by cases h), by decide⟩ (by decide) (by decide) (by decide) (by decide) (by decide)
      (.cons ⟨by decide, by decide, ?_, by decide⟩ (by decide) (by decide) (by decide) (by decide) (by decide) .nil)
    intro _ r h; cases h
  refine ⟨?_, ?_, hreads, by decide +kernel⟩
  · have key : ∃ o, getOptions P settings = (o, none) ∧ o.filter.custom = none ∧ o.filter.node = some (.plain d) ∧ o.filter.nodeActive = true ∧ o.hibernate.wakeAt = none ∧ o.hibernate.sleepAt = none ∧
        o.filter.child = none ∧ o.filter.sample = none ∧ o.sampling.type = .undefined ∧ (∀ r, o.hooks.queryStatus.invoke r = r) ∧
        o.Usual ∧ (defaultOptions P).hooks = o.hooks ∧ (defaultOptions P).behaviours = o.behaviours ∧
        (defaultOptions P).defects.skip = o.defects.skip :=
      ⟨_, rfl, rfl, rfl, rfl, rfl, rfl, rfl, rfl, rfl, fun _ => rfl,
        ⟨fun _ => rfl, fun l => (insertSort_sorts _ l).1, fun _ _ _ => rfl⟩, rfl, rfl, rfl⟩
    obtain ⟨o, e1, e2, e3, e4, e6, e7, e8, e9, e10, e11, e12, e13, e14, e15⟩ := key
    obtain ⟨F, e5⟩ := globEx_built hreads o.filter e2
    exact ⟨o, F.predicate P.engine, ⟨none, none, o.hibernate.inclusiveWake, o.hibernate.inclusiveSleep, fun _ => false, fun _ => false⟩,
      ⟨rfl, e1, e8, e9, e10, ⟨some F, .inr (.inr ⟨e2, _, F, e3, e4, e5, rfl⟩), fun _ h => by cases h; exact newFilter_safe e5 (by rw [e2]; intro _ h; cases h) (fun _ => rfl), rfl⟩,
        .inl ⟨e6, rfl⟩, .inl ⟨e7, rfl⟩, rfl, rfl, by decide, rfl, rfl, diskOf_holds hdis _ _ (.here [] Demo.music), e11⟩, rfl, rfl, e2, e3, e12, e13, e14, e15⟩
  · exact ⟨rfl, rfl, ⟨rfl, rfl, rfl, rfl, rfl, rfl, rfl⟩, by decide, rfl, rfl, diskOf_holds hdis _ _ (.here [] Demo.music), fun _ => rfl⟩

/-- Not vacuous, C53: flac files in directories whose names do not begin with "p". -/
example :
    let P := sortPlatform
    let h := Demo.byPath Demo.quiet
    let u : Using Nat := { toyUsing .universal with tree := ["m"], handler := some h }
    let file : FilterDef := .plain { type := .glob, pattern := "*.flac" }
    let dir : FilterDef := .plain { type := .regex, pattern := "p", negate := true }
    let d : FilterDef := .both { type := .poly } file dir
    let settings := settingsOf P [some (.filter { node := some d } none)]
    (∃ o f hib ff fd, Windowed P u settings (diskOf [] Demo.music) o h [] Demo.music (some f) hib ∧
      hib.wakeAt = none ∧ hib.sleepAt = none ∧ o.filter.custom = none ∧ o.filter.node = some d ∧
      newFilter P.engine (.plain (file.core.restrict Scope.file Scope.directory)) o.filter = .ok (some ff) ∧
      newFilter P.engine (.plain (dir.core.restrict Scope.directory Scope.file)) o.filter = .ok (some fd) ∧ o.Usual ∧
      (defaultOptions P).hooks = o.hooks ∧ (defaultOptions P).behaviours = o.behaviours ∧ (defaultOptions P).defects.skip = o.defects.skip) ∧
    (walkPrime P (.using u) settings (diskOf [] Demo.music) 0).nodes.map (fun n => n.path) =
      [["m"], ["m", "liverock"], ["m", "liverock", "c.flac"], ["m", "pop"], ["m", "Rock"], ["m", "Rock", "a.flac"]] := by
  intro P h u file dir d settings
  have hdis : Demo.music.Distinct := by simp [Demo.music, FS.Distinct, FS.DistinctL, FS.name]
  refine ⟨?_, by decide +kernel⟩
  have key : ∃ o F ff fd, getOptions P settings = (o, none) ∧ o.filter.custom = none ∧ o.filter.node = some d ∧ o.filter.nodeActive = true ∧
      newFilter P.engine d o.filter = .ok (some F) ∧ o.hibernate.wakeAt = none ∧ o.hibernate.sleepAt = none ∧
      o.filter.child = none ∧ o.filter.sample = none ∧ o.sampling.type = .undefined ∧ (∀ r, o.hooks.queryStatus.invoke r = r) ∧
      newFilter P.engine (.plain (file.core.restrict Scope.file Scope.directory)) o.filter = .ok (some ff) ∧
      newFilter P.engine (.plain (dir.core.restrict Scope.directory Scope.file)) o.filter = .ok (some fd) ∧
      o.Usual ∧ (defaultOptions P).hooks = o.hooks ∧ (defaultOptions P).behaviours = o.behaviours ∧
      (defaultOptions P).defects.skip = o.defects.skip :=
    ⟨_, _, _, _, rfl, rfl, rfl, rfl, rfl, rfl, rfl, rfl, rfl, rfl, fun _ => rfl, rfl, rfl,
      ⟨fun _ => rfl, fun l => (insertSort_sorts _ l).1, fun _ _ _ => rfl⟩, rfl, rfl, rfl⟩
  obtain ⟨o, F, ff, fd, e1, e2, e3, e4, e5, e6, e7, e8, e9, e10, e11, f1, f2, e12, e13, e14, e15⟩ := key
  exact ⟨o, F.predicate P.engine, ⟨none, none, o.hibernate.inclusiveWake, o.hibernate.inclusiveSleep, fun _ => false, fun _ => false⟩, ff, fd,
    ⟨rfl, e1, e8, e9, e10, ⟨some F, .inr (.inr ⟨e2, _, F, e3, e4, e5, rfl⟩), fun _ h => by cases h; exact newFilter_safe e5 (by rw [e2]; intro _ h; cases h) (fun _ => rfl), rfl⟩,
      .inl ⟨e6, rfl⟩, .inl ⟨e7, rfl⟩, rfl, rfl, by decide, rfl, rfl, diskOf_holds hdis _ _ (.here [] Demo.music), e11⟩, rfl, rfl, e2, e3, f1, f2, e12, e13, e14, e15⟩

/-- Not vacuous, C23 and C52 resumed: the demo session saved in /r/a. -/
example :
    let P := sortPlatform
    let h := Demo.byPath Demo.quiet
    let a := (savedAt ["r"] ["r", "a"] .universal).active
    let d : FilterCore := { type := .globEx, pattern := "b|.!mp3", ifNotApplicable := .no }
    let e : FilterCore := { type := .regex, pattern := "y", negate := true, scope := Scope.file }
    let files := Demo.saved ["r", "a"] .universal
    (∀ c, c = d ∨ c = e → ∃ o o₀ keep hib hib₀, Screened P (Demo.relic .spawn Demo.quiet) (settingsOf P [some (.filter { node := some (.plain c) } none)]) files o h a (some keep) hib ∧
      (hib.wakeAt = none ∧ hib.sleepAt = none) ∧ o.filter.custom = none ∧ o.filter.node = some (.plain c) ∧
      Screened P (Demo.relic .spawn Demo.quiet) [] files o₀ h a none hib₀ ∧ (hib₀.wakeAt = none ∧ hib₀.sleepAt = none) ∧ o₀.hooks = o.hooks ∧
      o₀.behaviours = o.behaviours ∧ (∀ k n re, (o.defects.skip k n re).2 = (.none, none)) ∧ o₀.defects.skip = o.defects.skip ∧
      (∀ k k' p e, (o.defects.fault k p e).2 = (o₀.defects.fault k' p e).2) ∧ Handler.Nil h) ∧
    d.ReadsAs P.engine "b".toList [] [⟨[], true, "mp3".toList⟩] ∧ P.engine.compiles e.pattern = true := by
  intro P h a d e files
  have hreads : d.ReadsAs P.engine "b".toList [] [⟨[], true, "mp3".toList⟩] := by
    refine ⟨rfl, "b".toList, [".!mp3".toList], [], by decide, .inl rfl, by decide, .inl ⟨by decide, rfl⟩, by decide, ?_, by decide⟩
    exact .cons ⟨by decide, by decide, (fun h => by cases h), by decide⟩ (by decide) (by decide) (by decide) (by decide) (by decide) .nil
  refine ⟨?_, hreads, by decide⟩
  · obtain ⟨doc, h1, h2⟩ := roundTrip sortPlatform (defaultOptions sortPlatform) (savedAt ["r"] ["r", "a"] .universal)
    have hf : files (Demo.relic .spawn Demo.quiet).from = .ok doc := by simp only [files, Demo.saved, savedFile, h1]
    have hplat (ws) : resumePlatform sortPlatform (Demo.relic .spawn Demo.quiet) (settingsOf sortPlatform ws) (.ok doc) =
        .ok ((bindOptions (fromJSON sortPlatform (toJSON (defaultOptions sortPlatform))) (settingsOf sortPlatform ws)).1, a) := by
      simp only [resumePlatform, h2, bindOptions, applyAll_settings]
      rfl
    intro c hc
    have key : ∃ o, (bindOptions (fromJSON sortPlatform (toJSON (defaultOptions sortPlatform))) (settingsOf P [some (.filter { node := some (.plain c) } none)])).1 = o ∧
        o.filter.custom = none ∧ o.filter.node = some (.plain c) ∧ o.filter.nodeActive = true ∧
        o.hibernate.wakeAt = none ∧ o.hibernate.sleepAt = none ∧
        o.filter.child = none ∧ o.filter.sample = none ∧ o.sampling.type = .undefined ∧ c.type ≠ .poly := by
      rcases hc with rfl | rfl <;> exact ⟨_, rfl, rfl, rfl, rfl, rfl, rfl, rfl, rfl, rfl, by decide⟩
    obtain ⟨o, e1, e2, e3, e4, e6, e7, e10, e11, e12, e13⟩ := key
    have hbuilt : ∃ F, newFilter P.engine (.plain c) o.filter = .ok (some F) := by
      rcases hc with rfl | rfl
      · exact globEx_built hreads o.filter e2
      · obtain ⟨g, hg, -⟩ := C23_scope_and_negation P.engine e o.filter e2 (.inr ⟨rfl, by decide⟩)
        exact ⟨g, hg⟩
    obtain ⟨F, e5⟩ := hbuilt
    have hcu : ∀ c, o.filter.custom = some c → ∀ v, c.isMatch v ≠ none := by rw [e2]; intro _ h; cases h
    refine ⟨o, (bindOptions (fromJSON sortPlatform (toJSON (defaultOptions sortPlatform))) []).1, F.predicate P.engine,
      ⟨none, none, o.hibernate.inclusiveWake, o.hibernate.inclusiveSleep, fun _ => false, fun _ => false⟩,
      ⟨none, none, true, false, fun _ => false, fun _ => false⟩,
      ⟨rfl, rfl, by rw [hf, ← e1]; exact hplat _, e10, e11, e12,
        ⟨some F, .inr (.inr ⟨e2, _, F, e3, e4, e5, rfl⟩), (fun _ h => by cases h; exact newFilter_total e5 hcu e13), rfl⟩,
        .inl ⟨e6, rfl⟩, .inl ⟨e7, rfl⟩, rfl, rfl, by decide⟩,
      ⟨rfl, rfl⟩, e2, e3,
      ⟨rfl, rfl, by rw [hf]; exact hplat [], rfl, rfl, rfl, ⟨none, .inl ⟨rfl, rfl, rfl⟩, (fun _ h => by cases h), rfl⟩, .inl ⟨rfl, rfl⟩, .inl ⟨rfl, rfl⟩,
        rfl, rfl, by decide⟩,
      ⟨rfl, rfl⟩, by rw [← e1]; rfl, by rw [← e1]; rfl, by rw [← e1]; intro _ _ _; rfl, by rw [← e1]; rfl, by rw [← e1]; intro _ _ _ _; rfl, fun _ _ => rfl⟩

end Traverse
