import Verif.Proofs.Bare
import Verif.Props.Depth
import Verif.Props.Brackets
import Verif.Props.Replies
import Verif.Props.Nodes
import Verif.Props.Metrics
import Verif.Props.Spawn
/-
The properties of the navigator, stated of whole sessions: age.Walk().Configure().Extent(age.Prime(using, settings...)).Navigate(ctx).
`walkPrime P (.using u) settings disk x` is the report of such a session: what Navigate returns (`verdict`), what the client side
sees in order (`tape`), the handler calls with their answers (`answers`, `nodes`) and the metrics of the result.

First the sessions without filter, hibernation and sampling (`Primed`), then any session that can be built (`Started`).
-/
namespace Traverse
variable {κ : Type}

/-- Read and skip hooks are the defaults, the sort hook reorders. -/
structure Options.Usual (o : Options κ) : Prop where
  read : ∀ r, o.hooks.readDirectory.invoke r = defaultRead r.1 r.2
  sort : ∀ l, (o.hooks.sort.invoke l).Perm l
  skip : ∀ k n re, (o.defects.skip k n re).2 = (.none, none)

/-- The depth limit that counts: 1 with NoRecurse (see C05_settings). -/
def Options.limit (o : Options κ) : Nat := o.behaviours.cascade.afterwards.depth

section
variable {P : Platform κ} {u : Using κ} {settings : List (Option (Setting κ))} {disk : Disk} {o : Options κ}
  {h h₀ : κ → Parcel → κ × Reply} {pre : Path} {fs : FS}

theorem Primed.withHandler (hp : Primed P u settings disk o h pre fs) (h') :
    Primed P { u with handler := some h' } settings disk o h' pre fs :=
  ⟨hp.noOptions, hp.options, hp.bare, hp.sub, rfl, hp.tree, hp.disk, hp.status⟩

theorem Primed.withSub (hp : Primed P u settings disk o h pre fs) (s) (hs : s ≠ .undefined) :
    Primed P { u with sub := s } settings disk o h pre fs :=
  ⟨hp.noOptions, hp.options, hp.bare, hs, hp.handler, hp.tree, hp.disk, hp.status⟩

theorem usual_read (hu : o.Usual) (sub) : (o.afterwards.nav sub).read = defaultRead := by
  funext l e; exact hu.read (l, e)

theorem usual_sort (hu : o.Usual) (sub) : SortPermutes (o.afterwards.nav sub) := hu.sort

theorem bare_nil (S : Setup) (tree) (hnil : Handler.Nil h) : AlwaysNil (bareEnv S (o.client h) tree) := fun _ _ => hnil _ _

theorem usual_skip (hu : o.Usual) (S : Setup) (tree) : DefaultSkip (bareEnv S (o.client h) tree) := fun _ _ _ => hu.skip _ _ _

theorem final_verdict {f : Final} {e} : f.verdict = .done e ↔ f = .done e := by cases f <;> simp [Final.verdict]

end

/-! ### Without filter, hibernation and sampling -/

section
variable (P : Platform κ) (u : Using κ) (settings : List (Option (Setting κ))) (disk : Disk) (o : Options κ)
  (h h₀ : κ → Parcel → κ × Reply) (pre : Path) (fs : FS)

/-- **C01** Universal, no depth limit, a handler that returns nil: exactly what lies below the tree path, each once. -/
theorem C01_session (hp : Primed P u settings disk o h pre fs) (hu : o.Usual) (hsub : u.sub = .universal) (hlimit : o.limit = 0)
    (hdistinct : fs.Distinct) (hnil : Handler.Nil h) (x : κ) :
    let rep := walkPrime P (.using u) settings disk x
    (rep.nodes.map fun n => (n.path, n.isDir)).Perm (fs.nodes pre) ∧ (rep.nodes.map fun n => n.path).Nodup ∧
    rep.verdict = .done none ∧ rep.complete = true := by
  obtain ⟨y, tree, h1, -, h3, h4⟩ := primed_walk hp x
  obtain ⟨g1, g2, g3⟩ := C01_universal_complete (o.afterwards.nav u.sub) (bareEnv (primedSetup o u.sub) (o.client h) tree)
    ((primedSetup o u.sub).world y (fun _ => none)) pre fs hsub hlimit (usual_read hu _) (usual_sort hu _) hdistinct
    (bare_nil _ _ hnil) (usual_skip hu _ _)
  intro rep
  simp only [rep, h1, h3]
  exact ⟨g1, g2, by rw [g3]; rfl, h4.2 (by rw [g3]; simp)⟩

/-- **C03** Files: the files of the Universal session with the same settings, in that order, with the same data. -/
theorem C03_session (hp : Primed P u settings disk o h pre fs) (hu : o.Usual) (hdistinct : fs.Distinct)
    (hnil : Handler.Nil h) (x x' : κ) :
    let files := walkPrime P (.using { u with sub := .files }) settings disk x
    let universal := walkPrime P (.using { u with sub := .universal }) settings disk x'
    files.nodes = universal.nodes.filter (fun n => !n.isDir) ∧ files.verdict = .done none ∧
    (o.limit = 0 → (files.nodes.map fun n => n.path).Perm (((fs.nodes pre).filter (fun q => !q.2)).map Prod.fst)) := by
  obtain ⟨y, tree, h1, -, h3, -⟩ := primed_walk (hp.withSub .files (by simp)) x
  obtain ⟨y', tree', -, -, h3', -⟩ := primed_walk (hp.withSub .universal (by simp)) x'
  have := C03_files (o.afterwards.nav .universal) (bareEnv (primedSetup o .files) (o.client h) tree)
    ((primedSetup o .files).world y (fun _ => none)) (bareEnv (primedSetup o .universal) (o.client h) tree')
    ((primedSetup o .universal).world y' (fun _ => none)) pre fs (usual_read hu _) (usual_sort hu _) hdistinct
    (bare_nil _ _ hnil) (usual_skip hu _ _) (bare_nil _ _ hnil) (usual_skip hu _ _)
  obtain ⟨g1, g2, g3⟩ := this
  intro files universal
  simp only [files, universal, h1, h3, h3']
  exact ⟨g1, final_verdict.2 g2, g3⟩

/-- **C04** Directories, with or without files: the directories of the Universal session, in that order, with the same data. -/
theorem C04_session (hp : Primed P u settings disk o h pre fs) (hu : o.Usual) (sub : Subscription)
    (hsub : sub = .directories ∨ sub = .directoriesWithFiles) (hby : SortByEntries (o.nav .universal))
    (hdistinct : fs.Distinct) (hroot : fs.isDir = true) (hnil : Handler.Nil h) (x x' : κ) :
    let dirs := walkPrime P (.using { u with sub := sub }) settings disk x
    let universal := walkPrime P (.using { u with sub := .universal }) settings disk x'
    dirs.nodes.map Node.toNodeInfo = (universal.nodes.filter (fun n => n.isDir)).map Node.toNodeInfo ∧ dirs.verdict = .done none ∧
    (o.limit = 0 → (dirs.nodes.map fun n => n.path).Perm (((fs.nodes pre).filter (fun q => q.2)).map Prod.fst)) := by
  obtain ⟨y, tree, h1, -, h3, -⟩ := primed_walk (hp.withSub sub (by rcases hsub with h | h <;> simp [h])) x
  obtain ⟨y', tree', -, -, h3', -⟩ := primed_walk (hp.withSub .universal (by simp)) x'
  have := C04_directories (o.afterwards.nav .universal) sub (bareEnv (primedSetup o sub) (o.client h) tree)
    ((primedSetup o sub).world y (fun _ => none)) (bareEnv (primedSetup o .universal) (o.client h) tree')
    ((primedSetup o .universal).world y' (fun _ => none)) pre fs hsub (usual_read hu _) (usual_sort hu _) hby hdistinct hroot
    (bare_nil _ _ hnil) (usual_skip hu _ _) (bare_nil _ _ hnil) (usual_skip hu _ _)
  obtain ⟨g1, g2, g3⟩ := this
  intro dirs universal
  simp only [dirs, universal, h1, h3, h3']
  exact ⟨g1, final_verdict.2 g2, g3⟩

/-- **C05** Two sessions that differ in the depth limit only: the limited one shows what the unlimited one shows, down to the
limit. -/
theorem C05_session (settings₀ : List (Option (Setting κ))) (o₀ : Options κ)
    (hp : Primed P u settings disk o h pre fs) (hp₀ : Primed P u settings₀ disk o₀ h pre fs) (hu : o.Usual)
    (hhooks : o₀.hooks = o.hooks) (hskip : o₀.defects.skip = o.defects.skip) (hff : o₀.behaviours.sortFilesFirst = o.behaviours.sortFilesFirst)
    (hlimit : 0 < o.limit) (hlimit₀ : o₀.limit = 0)
    (hdistinct : fs.Distinct) (hnil : Handler.Nil h) (x x' : κ) :
    let limited := walkPrime P (.using u) settings disk x
    let whole := walkPrime P (.using u) settings₀ disk x'
    limited.nodes = whole.nodes.filter (fun n => decide (n.depth ≤ (o.limit : Int))) ∧ limited.verdict = .done none := by
  obtain ⟨y, tree, h1, -, h3, -⟩ := primed_walk hp x
  obtain ⟨y', tree', -, -, h3', -⟩ := primed_walk hp₀ x'
  have hu₀ : o₀.Usual := ⟨by rw [hhooks]; exact hu.read, by rw [hhooks]; exact hu.sort, by rw [hskip]; exact hu.skip⟩
  have := C05_depth_limit_nodes (o.afterwards.nav u.sub) (bareEnv (primedSetup o u.sub) (o.client h) tree)
    ((primedSetup o u.sub).world y (fun _ => none)) (bareEnv (primedSetup o₀ u.sub) (o₀.client h) tree')
    ((primedSetup o₀ u.sub).world y' (fun _ => none)) pre fs o.limit hlimit (usual_sort hu _)
    (defaultRead_selects _ (usual_read hu _)) hdistinct (fun _ => usual_read hu _)
    (bare_nil _ _ hnil) (usual_skip hu _ _) (bare_nil _ _ hnil) (usual_skip hu₀ _ _)
  have e : { o.afterwards.nav u.sub with maxDepth := 0 } = o₀.afterwards.nav u.sub := by
    simp only [Options.nav, Nav.mk.injEq, true_and]
    refine ⟨?_, hlimit₀.symm, ?_, ?_⟩
    · exact hff.symm
    · show _ = fun l e => o₀.hooks.readDirectory.invoke (l, e); rw [hhooks]; rfl
    · show _ = o₀.hooks.sort.invoke; rw [hhooks]; rfl
  rw [e] at this
  intro limited whole
  simp only [limited, whole, h1, h3, h3']
  exact ⟨this.1, final_verdict.2 this.2⟩

/-- The nodes that were refused. -/
def refusals (l : List (Node × Reply)) : List Path := l.filterMap fun k => match k.2 with | .ok (some _) => some k.1.path | _ => none

/-- The nodes the handler refused. -/
def Report.refused (r : Report κ) : List Path := refusals r.answers

theorem refused_calls (l : List Ev) : Traverse.refused l = refusals (calls l) := by
  induction l with
  | nil => rfl
  | cons ev l ih =>
    unfold Traverse.refused calls refusals at *
    cases ev with
    | invoke n r => rcases r with (_ | e) | _ <;> simp [ih]
    | _ => simp [ih]

/-- **C08** Universal and Directories: a handler that returns nil or a skip sentinel is shown exactly what a handler `h₀` that
returns nil is shown in the same session, except what lies below the nodes for which it returned a sentinel; Navigate returns nil
unless that was the root. -/
theorem C08_session (hp : Primed P u settings disk o h pre fs) (hu : o.Usual) (hsub : u.sub ≠ .files) (hdistinct : fs.Distinct)
    (hcb : ∀ k p, (h k p).2 = .ok none ∨ ∃ e, (h k p).2 = .ok (some e) ∧ e.isSentinel = true) (hnil : Handler.Nil h₀) (x x' : κ) :
    let rep := walkPrime P (.using u) settings disk x
    let all := walkPrime P (.using { u with handler := some h₀ }) settings disk x'
    rep.nodes = all.nodes.filter (fun m => decide (∀ p ∈ rep.refused, ¬ Above p m.path)) ∧
    (rep.verdict = .done none ∨
      ∃ n e, (n, .ok (some e)) ∈ rep.answers ∧ n.path = u.tree ∧ rep.verdict = .done (some e)) := by
  obtain ⟨y, tree, h1, h2, h3, -⟩ := primed_walk hp x
  obtain ⟨y', tree', -, -, h3', -⟩ := primed_walk (hp.withHandler h₀) x'
  obtain ⟨g1, g2⟩ := C08_skipDir_prunes (o.afterwards.nav u.sub) (bareEnv (primedSetup o u.sub) (o.client h) tree)
    ((primedSetup o u.sub).world y (fun _ => none)) (bareEnv (primedSetup o u.sub) (o.client h₀) tree')
    ((primedSetup o u.sub).world y' (fun _ => none)) pre fs hsub (usual_sort hu _)
    (defaultRead_selects _ (usual_read hu _)) hdistinct (fun w n => hcb _ _) (usual_skip hu _ _).skipNone
    (bare_nil _ _ hnil) (usual_skip hu _ _)
  intro rep all
  have hr : (walkPrime P (.using u) settings disk x).refused = _ := (congrArg refusals h2).trans (refused_calls _).symm
  dsimp only [rep, all]
  rw [hr, h1, h2, h3, h3', hp.tree]
  simp only [final_verdict]
  exact ⟨g1, g2⟩

/-- **C08** Whatever the handler answers, panics included: what it is shown is an initial part of that. -/
theorem C08_session_prefix (hp : Primed P u settings disk o h pre fs) (hu : o.Usual) (hsub : u.sub ≠ .files) (hdistinct : fs.Distinct)
    (hnil : Handler.Nil h₀) (x x' : κ) :
    let rep := walkPrime P (.using u) settings disk x
    let all := walkPrime P (.using { u with handler := some h₀ }) settings disk x'
    rep.nodes <+: all.nodes.filter (fun m => decide (∀ p ∈ rep.refused, ¬ Above p m.path)) := by
  obtain ⟨y, tree, h1, h2, h3, -⟩ := primed_walk hp x
  obtain ⟨y', tree', -, -, h3', -⟩ := primed_walk (hp.withHandler h₀) x'
  have g1 := C08_skipDir_prefix (o.afterwards.nav u.sub) (bareEnv (primedSetup o u.sub) (o.client h) tree)
    ((primedSetup o u.sub).world y (fun _ => none)) (bareEnv (primedSetup o u.sub) (o.client h₀) tree')
    ((primedSetup o u.sub).world y' (fun _ => none)) pre fs hsub (usual_sort hu _)
    (defaultRead_selects _ (usual_read hu _)) hdistinct (usual_skip hu _ _).skipNone (bare_nil _ _ hnil) (usual_skip hu _ _)
  intro rep all
  have hr : (walkPrime P (.using u) settings disk x).refused = _ := (congrArg refusals h2).trans (refused_calls _).symm
  dsimp only [rep, all]
  rw [hr, h3, h3']
  exact g1

/-- **C09** (partial, see `C09_skipAll_does_not_end`) After SkipAll for a node nothing below it follows, and nothing at all if it
was the root. Missing: the rest. -/
theorem C09_session_partial (hp : Primed P u settings disk o h pre fs) (hu : o.Usual) (hsub : u.sub ≠ .files) (hdistinct : fs.Distinct)
    (x : κ) (n : Node) (e : Err) (he : e.isSkipAll = true) :
    let rep := walkPrime P (.using u) settings disk x
    (n, .ok (some e)) ∈ rep.answers → (∀ m ∈ rep.nodes, ¬ Above n.path m.path) ∧ (n.path = u.tree → rep.nodes = [n]) := by
  obtain ⟨y, tree, h1, h2, h3, -⟩ := primed_walk hp x
  have := C09_skipAll_partial (o.afterwards.nav u.sub) (bareEnv (primedSetup o u.sub) (o.client h) tree)
    ((primedSetup o u.sub).world y (fun _ => none)) pre fs hsub (usual_sort hu _)
    (defaultRead_selects _ (usual_read hu _)) hdistinct (usual_skip hu _ _).skipNone n e he
  intro rep
  simp only [rep, h2, h3, hp.tree]
  exact this

/-- **C10** (partial, see `C10_files_skipDir_ends`) Files: after SkipDir nothing follows, and Navigate returns it; a handler that
answers nil or SkipAll is shown what a handler that answers nil is shown, minus what comes later in the directory of a file for
which it answered SkipAll. Missing: SkipDir should not end the traversal, SkipAll should. -/
theorem C10_session_partial (hp : Primed P u settings disk o h pre fs) (hu : o.Usual) (hsub : u.sub = .files) (hdistinct : fs.Distinct)
    (hnil : Handler.Nil h₀) (x x' : κ) :
    let rep := walkPrime P (.using u) settings disk x
    let all := (walkPrime P (.using { u with handler := some h₀ }) settings disk x').nodes
    (∀ n e, (n, .ok (some e)) ∈ rep.answers → e.isSkipDir = true →
      rep.verdict = .done (some e) ∧ ∃ before, rep.answers = before ++ [(n, .ok (some e))]) ∧
    ((∀ n r, (n, r) ∈ rep.answers → r = .ok none ∨ ∃ e, r = .ok (some e) ∧ e.isSkipAll = true ∧ e.isSkipDir = false) →
      rep.nodes = all.filter (fun m => decide (¬ leftOut (all.map fun k => k.path) rep.refused m.path))) := by
  obtain ⟨y, tree, h1, h2, h3, -⟩ := primed_walk hp x
  obtain ⟨y', tree', -, -, h3', -⟩ := primed_walk (hp.withHandler h₀) x'
  have g1 := C10_files_skip_partial (o.afterwards.nav u.sub) (bareEnv (primedSetup o u.sub) (o.client h) tree)
    ((primedSetup o u.sub).world y (fun _ => none)) (bareEnv (primedSetup o u.sub) (o.client h₀) tree')
    ((primedSetup o u.sub).world y' (fun _ => none)) pre fs hsub (usual_sort hu _) (usual_read hu _)
    hdistinct (usual_skip hu _ _) (bare_nil _ _ hnil) (usual_skip hu _ _)
  intro rep all
  have hr : (walkPrime P (.using u) settings disk x).refused = _ := (congrArg refusals h2).trans (refused_calls _).symm
  dsimp only [rep, all]
  have key : ∀ A B : List Node, A = B → ∀ R R', R = R' → A.filter (fun m => decide (¬ leftOut (A.map fun k => k.path) R m.path)) =
      B.filter (fun m => decide (¬ leftOut (B.map fun k => k.path) R' m.path)) := by
    rintro A _ rfl R _ rfl; rfl
  rw [h1, h2, h3]
  simp only [final_verdict]
  exact ⟨g1.1, fun hm => (g1.2 hm).trans (key _ _ h3'.symm _ _ hr.symm)⟩

/-- **C15** An unreadable directory is as good as an empty one, for every handler. -/
theorem C15_session_like_empty (disk' : Disk) (hp : Primed P u settings disk o h pre fs) (hp' : Primed P u settings disk' o h pre fs.emptied)
    (hu : o.Usual) (hskip : ∀ k n re, o.defects.skip k n re = o.defects.skip k n none)
    (hby : SortByEntries (o.nav .universal)) (x : κ) :
    let rep := walkPrime P (.using u) settings disk x
    let rep' := walkPrime P (.using u) settings disk' x
    rep.verdict = rep'.verdict ∧ rep.answers = rep'.answers := by
  obtain ⟨h1, h2, -, -⟩ := primed_walk_at hp x
  obtain ⟨h1', h2', -, -⟩ := primed_walk_at hp' x
  rw [(emptied_id fs).1] at h1' h2'
  have := C15_unreadable_like_empty (o.afterwards.nav u.sub) (bareEnv (primedSetup o u.sub) (o.client h) (pre ++ [fs.name]))
    ((primedSetup o u.sub).world ((o.client h).listen x (.begin u.tree)) (fun _ => none)) pre fs (usual_read hu _) hby
    (usual_skip hu _ _) (fun w n re => by simp only [bareEnv, Options.client, hskip _ n re])
  intro rep rep'
  rw [show rep.verdict = _ from h1, show rep'.verdict = _ from h1', show rep.answers = _ from h2, show rep'.answers = _ from h2']
  exact ⟨by rw [this.1], this.2.1⟩

/-- **C15** Compared with the same disk where every directory can be read (`disk'`): outside the unreadable directories the same
nodes in the same order, and Navigate returns nil. -/
theorem C15_session_isolated (disk' : Disk) (hp : Primed P u settings disk o h pre fs) (hp' : Primed P u settings disk' o h pre fs.mended)
    (hu : o.Usual) (hskip : ∀ k n re, o.defects.skip k n re = o.defects.skip k n none)
    (hby : SortByEntries (o.nav .universal)) (hdistinct : fs.Distinct) (hnil : Handler.Nil h) (x x' : κ) :
    let rep := walkPrime P (.using u) settings disk x
    let rep' := walkPrime P (.using u) settings disk' x'
    rep.verdict = .done none ∧
    ∀ ok : Node → Bool, (∀ n, ok n = true ↔ ∀ b ∈ fs.badDirs pre, ¬ b <+: n.path) → rep.nodes.filter ok = rep'.nodes.filter ok := by
  obtain ⟨y, tree, h1, -, h3, -⟩ := primed_walk hp x
  obtain ⟨y', tree', -, -, h3', -⟩ := primed_walk hp' x'
  have := C15_unreadable_isolated (o.afterwards.nav u.sub) (bareEnv (primedSetup o u.sub) (o.client h) tree)
    ((primedSetup o u.sub).world y (fun _ => none)) (bareEnv (primedSetup o u.sub) (o.client h) tree')
    ((primedSetup o u.sub).world y' (fun _ => none)) pre fs (usual_read hu _) hby hdistinct (bare_nil _ _ hnil)
    (usual_skip hu _ _) (fun w n re => by simp only [bareEnv, Options.client, hskip _ n re]) (bare_nil _ _ hnil) (usual_skip hu _ _)
  intro rep rep'
  dsimp only [rep, rep']
  rw [h1, h3, h3']
  exact ⟨final_verdict.2 this.1, this.2.1⟩

/-- **C15** and the handler is called for the unreadable directories themselves. -/
theorem C15_session_delivered (hp : Primed P u settings disk o h pre fs) (hu : o.Usual) (hsub : u.sub ≠ .files) (hroot : fs.isDir = true)
    (hlimit : o.limit = 0) (hby : SortByEntries (o.nav .universal)) (hdistinct : fs.Distinct) (hnil : Handler.Nil h) (x : κ) :
    ∀ b ∈ fs.badDirs pre, b ∈ (walkPrime P (.using u) settings disk x).nodes.map (fun n => n.path) := by
  obtain ⟨y, tree, -, -, h3, -⟩ := primed_walk hp x
  rw [h3]
  exact C15_unreadable_delivered (o.afterwards.nav u.sub) (bareEnv (primedSetup o u.sub) (o.client h) tree)
    ((primedSetup o u.sub).world y (fun _ => none)) pre fs hsub hp.sub hroot (usual_read hu _) hlimit hby hdistinct (bare_nil _ _ hnil)
    (usual_skip hu _ _)

end

/-! ### Any session that can be built -/

section
variable {P : Platform κ} {u : Using κ} {settings : List (Option (Setting κ))} {disk : Disk} {S : Setup} {o : Options κ}
  {h : κ → Parcel → κ × Reply} {pre : Path} {fs : FS}

/-- The session as the navigator's, with what it is made of. -/
theorem started_walk (hs : Started P u settings disk S o h pre fs) (x : κ) :
    ∃ y, let r := S.session (o.client h) y (fun _ => none) [] pre fs
    let rep := walkPrime P (.using u) settings disk x
    rep.verdict = r.1.verdict ∧ rep.answers.Sublist (calls r.2.log) ∧ rep.nodes.Sublist (invoked r.2.log) := by
  obtain ⟨y, h1, h2, -⟩ := started_facts hs x
  refine ⟨y, h1, ?_, ?_⟩
  · show (List.map _ _).Sublist _
    rw [h2]; exact session_hitsIn S (o.client h) y (fun _ => none) [] pre fs
  · show (List.map _ _).Sublist _
    rw [h2]; exact invoked_of_hits (session_hitsIn S (o.client h) y (fun _ => none) [] pre fs)

/-- A sublist of `before ++ [a]` that has `a`, which is not in `before`, ends with it. -/
theorem sublist_last {α} {l before : List α} {a : α} (h : l.Sublist (before ++ [a])) (ha : a ∈ l) (hb : a ∉ before) :
    ∃ b, l = b ++ [a] ∧ b.Sublist before := by
  obtain ⟨l1, l2, rfl, h1, h2⟩ := List.sublist_append_iff.1 h
  cases h2 with
  | cons _ h2 =>
    cases h2
    rw [List.append_nil] at ha
    exact absurd (h1.subset ha) hb
  | cons_cons _ h2 => cases h2; exact ⟨l1, rfl, h1⟩

end

section
variable (P : Platform κ) (u : Using κ) (settings : List (Option (Setting κ))) (disk : Disk) (S : Setup) (o : Options κ)
  (h : κ → Parcel → κ × Reply) (pre : Path) (fs : FS)

/-- **C02** Pre-order and sibling order, whatever is configured and whatever the handlers answer. -/
theorem C02_session (hs : Started P u settings disk S o h pre fs) (hsort : SortPermutes (o.nav u.sub)) (hread : ReadSelects (o.nav u.sub))
    (hdistinct : fs.Distinct) (x : κ) :
    let L := (walkPrime P (.using u) settings disk x).nodes
    L.Pairwise (fun i j => ¬ j.path <+: i.path) ∧
    (∀ p a y b, [a, y, b].Sublist L → p <+: a.path → p <+: b.path → p <+: y.path) ∧
    (∀ p m n i j, [i, j].Sublist L → i.path = p ++ [m] → j.path = p ++ [n] →
      ∃ g, FS.At pre fs p g ∧ [m, n].Sublist (visitOrder (o.nav u.sub) g)) := by
  obtain ⟨y, -, -, h3⟩ := started_walk hs x
  have hnav := (primary_ready hs.built).2.1
  obtain ⟨g1, g2, g3⟩ := C02_preorder S.nav _ (S.world y (fun _ => none)) pre fs (hnav ▸ hsort) (hnav ▸ hread) hdistinct
  refine ⟨g1.sublist h3, fun p a y b hl => g2 p a y b (hl.trans h3), fun p m n i j hl hi hj => ?_⟩
  rw [← hnav]
  exact g3 p m n i j (hl.trans h3) hi hj

/-- **C05** Nothing below the limit is delivered. -/
theorem C05_session_nothing_deeper (hs : Started P u settings disk S o h pre fs) (hlimit : 0 < o.behaviours.cascade.depth) (x : κ) :
    ∀ m ∈ (walkPrime P (.using u) settings disk x).nodes, m.path.length ≤ u.tree.length + o.behaviours.cascade.depth := by
  obtain ⟨y, -, -, h3⟩ := started_walk hs x
  have hnav := (primary_ready hs.built).2.1
  intro m hm
  have := C05_nothing_deeper S.nav _ (S.world y (fun _ => none)) pre fs (by rw [hnav]; exact hlimit) m (h3.subset hm)
  rw [hnav] at this
  rw [hs.tree]
  simpa [Options.nav] using this

/-- **C06** Every node lies at or below the tree path and reports its distance from it. -/
theorem C06_session (hs : Started P u settings disk S o h pre fs) (x : κ) :
    ∀ m ∈ (walkPrime P (.using u) settings disk x).nodes, u.tree <+: m.path ∧ m.path.length = u.tree.length + m.depth := by
  obtain ⟨y, -, -, h3⟩ := started_walk hs x
  intro m hm
  have := C06_depth S.nav _ (S.world y (fun _ => none)) pre fs m (h3.subset hm)
  rw [hs.tree]
  simpa using this

/-- **C07** Between Begin and End lies one well nested tour of the tree (see `Tour`), every Descend has its Ascend and every
handler call is between those of its node; also when Navigate panics, except that there is no End then. -/
theorem C07_session (hs : Started P u settings disk S o h pre fs) (x : κ) :
    let rep := walkPrime P (.using u) settings disk x
    ∃ mid, rep.tape = .note (.begin u.tree) :: mid ++ (if rep.verdict = .panic then [] else [.note .ended]) ∧ Tour u.tree mid := by
  obtain ⟨y, h1, -, h3⟩ := started_facts hs x
  intro rep
  have hord : S.Ordinary := Or.inl (primary_ready hs.built).1
  have hshown := session_shown S hord (o.client h) y (fun _ => none) [] pre fs
  obtain ⟨v, hv, hvis, -⟩ := traverse_visit S.nav (S.env (o.client h) (pre ++ [fs.name]) []) (prep S.nav fs) [] pre (St.fresh (S.world y (fun _ => none)))
  have hvisit : Visit (pre ++ [fs.name]) (S.session (o.client h) y (fun _ => none) [] pre fs).2.log := by
    simp only [Setup.session, walk]
    rw [hv]
    rcases hvis with ⟨h, _⟩ | h
    · rw [fresh_tooDeep] at h; simp at h
    · rw [(prep_entry S.nav fs).1] at h; simpa [St.fresh] using h
  refine ⟨(S.session (o.client h) y (fun _ => none) [] pre fs).2.ext.tape, ?_, ?_⟩
  · rw [show rep.tape = _ from h3, show rep.verdict = _ from h1]
    congr 1
    cases (S.session (o.client h) y (fun _ => none) [] pre fs).1 <;> simp [Final.verdict]
  · rw [hs.tree]
    exact hvisit.tour _ hshown

/-- **C11** A genuine error of the handler is the last answer and what Navigate returns; all answers before were nil or skip
sentinels. -/
theorem C11_session (hs : Started P u settings disk S o h pre fs) (x : κ) (n : Node) (e : Err) (hgen : Genuine e) :
    let rep := walkPrime P (.using u) settings disk x
    (n, .ok (some e)) ∈ rep.answers →
      rep.verdict = .done (some e) ∧ ∃ before, rep.answers = before ++ [(n, .ok (some e))] ∧ ∀ k ∈ before, k.2.Mild := by
  obtain ⟨y, h1, h2, -⟩ := started_walk hs x
  intro rep hm
  obtain ⟨g1, before, g2, g3⟩ := C11_genuine_error S.nav _ (S.world y (fun _ => none)) pre fs n e (h2.subset hm) hgen
  have hl : rep.answers.Sublist (before ++ [(n, .ok (some e))]) := by rw [← g2]; exact h2
  obtain ⟨b, hb, hsub⟩ := sublist_last hl hm (fun hc => by
    rcases g3 _ hc with h | ⟨e', h, hn⟩
    · cases h
    · cases h; exact hn hgen)
  refine ⟨?_, b, hb, fun k hk => g3 k (hsub.subset hk)⟩
  rw [show rep.verdict = _ from h1]
  exact final_verdict.2 g1

/-- **C12** If Navigate returns nil no handler call panicked or returned a genuine error. -/
theorem C12_session (hs : Started P u settings disk S o h pre fs) (x : κ) :
    let rep := walkPrime P (.using u) settings disk x
    rep.verdict = .done none → ∀ k ∈ rep.answers, k.2.Mild := by
  obtain ⟨y, h1, h2, -⟩ := started_walk hs x
  intro rep hv k hk
  rw [show rep.verdict = _ from h1] at hv
  have := C12_nil_means_ok S.nav (S.env (o.client h) (pre ++ [fs.name]) []) o.fault pre u.tree (.found (prep S.nav fs)) (S.world y (fun _ => none))
    (by rintro t ⟨⟩; exact ⟨fs, rfl⟩) (final_verdict.1 hv)
  obtain ⟨n, r⟩ := k
  obtain ⟨g1, g2⟩ := this.2 n r (h2.subset hk)
  rcases r with (_ | e) | _
  · exact Or.inl rfl
  · exact Or.inr ⟨e, rfl, g2 e rfl⟩
  · exact absurd rfl g1

/-- **C14** When the tree path cannot be stat'ed (or the status hook says so): the fault handler is asked once, after Begin, with
path and error; its answer is what Navigate returns; no handler is called, and nothing but Begin and End is published. -/
theorem C14_session (hb : buildPrimary P (.using u) settings = .ready S o) (e : Err)
    (he : o.hooks.queryStatus.invoke (disk u.tree) = .error e) (x : κ) :
    let rep := walkPrime P (.using u) settings disk x
    let begun := (o.client h).listen x (.begin u.tree)
    let answer := o.defects.fault begun u.tree e
    rep.verdict = .done answer.2 ∧ rep.answers = [] ∧ rep.tape = [.note (.begin u.tree), .note .ended] ∧
    rep.client = (o.client h).listen answer.1 .ended := by
  have hst : statOf S.nav o disk u.tree = .error e := by simp only [statOf, he]
  have hmut : ∀ y m e, (S.world (κ := κ) y m).muted e = false := by
    intro y m e; simp [Setup.world, (primary_ready hb).1]
  have hlis : ∀ h' n k, (o.client h').listen k n = (o.client h).listen k n := fun _ _ _ => rfl
  simp only [walkPrime, hb, Built.navigate, runTop, hst, top, World.publish, Note.ev, hmut, Options.fault, Bool.false_eq_true, if_false]
  refine ⟨rfl, rfl, ?_, rfl⟩
  simp [Setup.world]

/-- **C13** The two invocation counters of the result are the number of handler calls for files (`false`) and directories (`true`),
and every handler call sees the number of calls so far, itself included. -/
theorem C13_session (hs : Started P u settings disk S o h pre fs) (x : κ) :
    let rep := walkPrime P (.using u) settings disk x
    (rep.verdict ≠ .panic → ∀ d, rep.metrics.count (invokedMetric d) = ofKind d rep.nodes) ∧
    (∀ before hit after, rep.hits = before ++ hit :: after → ∀ d, hit.seen.count (invokedMetric d) =
      ofKind d ((before ++ [hit]).map (fun h => h.parcel.node))) := by
  have h1 := started_session hs x
  simp only at h1
  intro rep
  have hc := C13_invocation_metrics S (o.client h) ((o.client h).listen x (.begin u.tree)) (fun _ => none) [] pre fs
  have e0 : ∀ d, Metrics.count (fun _ => none) (invokedMetric d) = 0 := fun _ => rfl
  simp only [e0, Nat.zero_add] at hc
  have hhits : rep.hits = (S.session (o.client h) ((o.client h).listen x (.begin u.tree)) (fun _ => none) [] pre fs).2.ext.hits := by
    simp only [rep, h1]
    cases (S.session (o.client h) ((o.client h).listen x (.begin u.tree)) (fun _ => none) [] pre fs).1 <;> rfl
  refine ⟨?_, by rw [hhits]; exact hc.2⟩
  intro hv d
  have hn : rep.nodes = (S.session (o.client h) ((o.client h).listen x (.begin u.tree)) (fun _ => none) [] pre fs).2.ext.called := by
    simp only [Report.nodes, hhits, World.called]
  rw [hn, ← hc.1 d]
  simp only [rep, h1] at hv ⊢
  cases hf : (S.session (o.client h) ((o.client h).listen x (.begin u.tree)) (fun _ => none) [] pre fs).1 with
  | panic => rw [hf] at hv; simp at hv
  | done e => rfl

/-- **C24** Every node carries exactly the scope bits that describe it. -/
theorem C24_session (hs : Started P u settings disk S o h pre fs) (hread : (o.nav u.sub).read = defaultRead)
    (hsort : SortPermutes (o.nav u.sub)) (x : κ) (n : Node) (hn : n ∈ (walkPrime P (.using u) settings disk x).nodes) :
    ∃ g, FS.At pre fs n.path g ∧ n.isDir = g.isDir ∧
      (g.isDir = false → n.scope = Scope.leaf ||| Scope.file ∧ n.isLeaf = false) ∧
      (g.isDir = true → n.isLeaf = g.subDirs.isEmpty ∧
        n.scope.has Scope.directory ∧ ¬ n.scope.has Scope.file ∧
        (n.scope.has Scope.tree ↔ n.depth = 0) ∧
        (n.scope.has Scope.top ↔ n.depth = 1) ∧
        (n.scope.has Scope.leaf ↔ g.subDirs = []) ∧
        (n.scope.has Scope.intermediate ↔ ¬ n.depth = 0 ∧ ¬ n.depth = 1 ∧ g.subDirs ≠ [])) := by
  obtain ⟨y, -, -, h3⟩ := started_walk hs x
  have hnav := (primary_ready hs.built).2.1
  obtain ⟨g, g1, g2, g3, g4⟩ := C24_scope S.nav _ (S.world y (fun _ => none)) pre fs (hnav ▸ hread) (hnav ▸ hsort) n (h3.subset hn)
  refine ⟨g, g1, g2, g3, fun hd => ?_⟩
  obtain ⟨a1, a2, a3, a4, a5, a6, a7, -⟩ := g4 hd
  exact ⟨a1, a2, a3, a4, a5, a6, a7⟩

/-- **C54** Nodes below the root are delivered with the error of obtaining their entry information. -/
theorem C54_session (hs : Started P u settings disk S o h pre fs) (hread : (o.nav u.sub).read = defaultRead)
    (hsort : SortPermutes (o.nav u.sub)) (x : κ) (n : Node) (hn : n ∈ (walkPrime P (.using u) settings disk x).nodes) :
    (n.depth = 0 → n.infoErr = none) ∧ (0 < n.depth → ∃ g, FS.At pre fs n.path g ∧ n.infoErr = g.infoErr) := by
  obtain ⟨y, -, -, h3⟩ := started_walk hs x
  have hnav := (primary_ready hs.built).2.1
  exact C54_error_on_node S.nav _ (S.world y (fun _ => none)) pre fs (hnav ▸ hread) (hnav ▸ hsort) n (h3.subset hn)

end
/-! ### Cases: the hypotheses are met -/

theorem insertSort_byEntries (key : String → String) : ∀ ps : List (Tree × Tree), (∀ p ∈ ps, p.1.entry = p.2.entry) →
    ∃ qs : List (Tree × Tree), qs.Perm ps ∧ insertSort key (ps.map Prod.fst) = qs.map Prod.fst ∧
      insertSort key (ps.map Prod.snd) = qs.map Prod.snd := by
  have hins : ∀ (p : Tree × Tree) (ps : List (Tree × Tree)), p.1.entry = p.2.entry → (∀ q ∈ ps, q.1.entry = q.2.entry) →
      ∃ qs : List (Tree × Tree), qs.Perm (p :: ps) ∧ insertBy key p.1 (ps.map Prod.fst) = qs.map Prod.fst ∧
        insertBy key p.2 (ps.map Prod.snd) = qs.map Prod.snd := by
    intro p ps hp
    induction ps with
    | nil => intro _; exact ⟨[p], .refl _, rfl, rfl⟩
    | cons q ps ih =>
      intro hq
      have e : ∀ r : Tree × Tree, r.1.entry = r.2.entry → r.1.name = r.2.name := by
        intro r hr; exact congrArg Entry.name hr
      obtain ⟨qs, h1, h2, h3⟩ := ih (fun r hr => hq r (by simp [hr]))
      simp only [List.map_cons, insertBy]
      rw [e p hp, e q (hq q (by simp))]
      by_cases hlt : key q.2.name < key p.2.name
      · rw [if_pos hlt, if_pos hlt]
        exact ⟨q :: qs, (h1.cons q).trans (List.Perm.swap _ _ _), by simp [h2], by simp [h3]⟩
      · rw [if_neg hlt, if_neg hlt]
        exact ⟨p :: q :: ps, .refl _, rfl, rfl⟩
  intro ps
  induction ps with
  | nil => intro _; exact ⟨[], .refl _, rfl, rfl⟩
  | cons p ps ih =>
    intro hp
    obtain ⟨qs, h1, h2, h3⟩ := ih (fun r hr => hp r (by simp [hr]))
    obtain ⟨rs, g1, g2, g3⟩ := hins p qs (hp p (by simp)) (fun r hr => hp r (by simp [h1.mem_iff.1 hr]))
    refine ⟨rs, g1.trans (h1.cons p), ?_, ?_⟩
    · rw [← g2, ← h2]; rfl
    · rw [← g3, ← h3]; rfl

/-- Any settings that give the default options, but for the behaviours. -/
theorem Demo.primed (sub : Subscription) (hsub : sub ≠ .undefined) (b : Behaviours) (settings) (fs : FS) (hd : fs.Distinct) (hn : fs.name = "r")
    (hs : getOptions sortPlatform settings = ({ defaultOptions sortPlatform with behaviours := b }, none)) (h : Nat → Parcel → Nat × Reply) :
    Primed sortPlatform { toyUsing sub with handler := some h } settings (diskOf [] fs) { defaultOptions sortPlatform with behaviours := b } h [] fs where
  noOptions := rfl
  options := hs
  bare := ⟨rfl, rfl, rfl, rfl, rfl, rfl, rfl⟩
  sub := hsub
  handler := rfl
  tree := by simp [toyUsing, hn]
  disk := diskOf_holds hd _ _ (by have := FS.At.here [] fs; rwa [hn] at this)
  status _ := rfl

theorem Demo.usual (b : Behaviours) : Options.Usual { defaultOptions sortPlatform with behaviours := b } where
  read _ := rfl
  sort l := (insertSort_sorts _ l).1
  skip _ _ _ := rfl

/-- A client whose handler counts its calls and answers by the path. -/
def Demo.byPath (g : Path → Reply) : Nat → Parcel → Nat × Reply := fun k p => (k + 1, g p.node.path)

/-- Not vacuous, C01 to C15: a session with the default options and one with a depth limit, a handler that accepts everything and one
that skips; and what the handlers are shown. -/
example :
    let P := sortPlatform
    let u (sub) (g) : Using Nat := { toyUsing sub with handler := some (Demo.byPath g) }
    let shown (sub) (ws) (g) := (walkPrime P (.using (u sub g)) (settingsOf P ws) (diskOf [] Demo.fs) 0).nodes.map fun n => n.path
    let quiet : Path → Reply := fun _ => .ok none
    (∀ sub g, sub ≠ .undefined → Primed P (u sub g) [] (diskOf [] Demo.fs) (defaultOptions P) (Demo.byPath g) [] Demo.fs) ∧
    (∀ sub g, sub ≠ .undefined → ∃ b, Primed P (u sub g) (settingsOf P [some (.depth 1)]) (diskOf [] Demo.fs)
      { defaultOptions P with behaviours := b } (Demo.byPath g) [] Demo.fs ∧ Options.limit { defaultOptions P with behaviours := b } = 1) ∧
    (defaultOptions P).Usual ∧ (defaultOptions P).limit = 0 ∧ Demo.fs.Distinct ∧ Demo.fs.isDir = true ∧
    (∀ sub, SortByEntries ((defaultOptions P).nav sub)) ∧ Handler.Nil (Demo.byPath quiet) ∧
    shown .universal [] quiet = [["r"], ["r", "a"], ["r", "a", "b"], ["r", "a", "b", "y"], ["r", "a", "b", "z"], ["r", "a", "x"], ["r", "c"],
      ["r", "c", "w"], ["r", "f"], ["r", "g"]] ∧
    shown .universal [some (.depth 1)] quiet = [["r"], ["r", "a"], ["r", "c"], ["r", "f"], ["r", "g"]] ∧
    shown .files [] quiet = [["r", "a", "b", "y"], ["r", "a", "b", "z"], ["r", "a", "x"], ["r", "c", "w"], ["r", "f"], ["r", "g"]] ∧
    shown .directories [] quiet = [["r"], ["r", "a"], ["r", "a", "b"], ["r", "c"]] ∧
    shown .universal [] (fun p => if p = ["r", "a"] then .ok (some .skipDir) else .ok none) =
      [["r"], ["r", "a"], ["r", "c"], ["r", "c", "w"], ["r", "f"], ["r", "g"]] ∧
    shown .universal [] (fun p => if p = ["r", "c"] then .ok (some (.code 5)) else .ok none) =
      [["r"], ["r", "a"], ["r", "a", "b"], ["r", "a", "b", "y"], ["r", "a", "b", "z"], ["r", "a", "x"], ["r", "c"]] := by
  refine ⟨fun sub g hs => ?_, fun sub g hs => ⟨{ (defaultOptions sortPlatform).behaviours with cascade := withDepth 1 (defaultOptions sortPlatform).behaviours.cascade }, ?_, rfl⟩, Demo.usual _, rfl, Demo.distinct, rfl, fun sub => insertSort_byEntries _, fun _ _ => rfl, ?_⟩
  · exact Demo.primed sub hs _ _ _ Demo.distinct rfl rfl _
  · exact Demo.primed sub hs _ _ _ Demo.distinct rfl rfl _
  · decide +kernel

/-- Not vacuous, C15: a disk with an unreadable directory, and the disks it is compared with. -/
example :
    let P := sortPlatform
    let u : Using Nat := { toyUsing .universal with handler := some (Demo.byPath fun _ => .ok none) }
    let shown (fs : FS) := (walkPrime P (.using u) [] (diskOf [] fs) 0).nodes.map fun n => n.path
    (∀ fs ∈ [Demo.fsBad, Demo.fsBad.emptied, Demo.fsBad.mended],
      Primed P u [] (diskOf [] fs) (defaultOptions P) (Demo.byPath fun _ => .ok none) [] fs) ∧
    Demo.fsBad.badDirs [] = [["r", "a"]] ∧ shown Demo.fsBad = [["r"], ["r", "a"], ["r", "c"], ["r", "c", "w"], ["r", "f"]] ∧
    shown Demo.fsBad.mended = [["r"], ["r", "a"], ["r", "a", "x"], ["r", "c"], ["r", "c", "w"], ["r", "f"]] := by
  refine ⟨?_, ?_⟩
  · intro fs hfs
    simp only [List.mem_cons, List.not_mem_nil, or_false] at hfs
    rcases hfs with rfl | rfl | rfl <;> refine Demo.primed _ (by decide) _ _ _ ?_ rfl rfl _ <;>
      simp [Demo.fsBad, FS.emptied, FS.emptiedL, FS.mended, FS.mendedL, FS.Distinct, FS.DistinctL, FS.name]
  · decide +kernel

/-- Not vacuous, C02 to C54: a session with filter, hibernation and sampling is started; files panic, fail or not as the handler says. -/
example :
    let P := sortPlatform
    let u : Using Nat := { toyUsing .universal with handler := some (Demo.byPath fun p => if p = ["r", "c", "w"] then .panic else .ok none) }
    let settings := settingsOf P [some (.filterWake (some (.plain { type := .regex, pattern := "a" }))),
      some (.filter { node := some (.plain { type := .regex, pattern := "b", negate := true }) } none)]
    (∃ S o, Started P u settings (diskOf [] Demo.fs) S o (Demo.byPath fun p => if p = ["r", "c", "w"] then .panic else .ok none) [] Demo.fs ∧
      (o.nav u.sub).read = defaultRead ∧ SortPermutes (o.nav u.sub)) ∧
    (walkPrime P (.using u) settings (diskOf [] Demo.fs) 0).nodes.map (fun n => n.path) =
      [["r", "a"], ["r", "a", "b", "y"], ["r", "a", "b", "z"], ["r", "a", "x"], ["r", "c"], ["r", "c", "w"]] := by
  intro P u settings
  refine ⟨?_, by decide +kernel⟩
  have key : ∃ S o, buildPrimary P (.using u) settings = .ready S o ∧ (∀ r, o.hooks.queryStatus.invoke r = r) ∧
      (o.nav u.sub).read = defaultRead ∧ SortPermutes (o.nav u.sub) :=
    ⟨_, _, rfl, fun _ => rfl, rfl, fun l => (insertSort_sorts _ l).1⟩
  obtain ⟨S', o', h1, h2, h3, h4⟩ := key
  exact ⟨S', o', ⟨h1, rfl, rfl, diskOf_holds Demo.distinct _ _ (.here [] Demo.fs), h2⟩, h3, h4⟩

end Traverse
