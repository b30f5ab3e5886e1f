import Verif.Proofs.Plain
import Verif.Props.Resume
import Verif.Props.Sort
/-
C20: what a spawn resume visits.
-/
namespace Traverse
variable {κ : Type}

/-- The paths and kinds a session called its handler with, in order. -/
def Report.calls (r : Report κ) : List (Path × Bool) := r.hits.map (fun h => (h.parcel.node.path, h.parcel.node.isDir))

theorem calls_shown {s : St (World κ)} (h : s.ext.called = invoked s.log) :
    s.ext.hits.map (fun h => (h.parcel.node.path, h.parcel.node.isDir)) = shown s.log := by
  unfold shown
  rw [← h, World.called, List.map_map]
  rfl

theorem plain_nav {key} {o : Options κ} (hp : o.Plain key) (sub) : (o.afterwards.nav sub).maxDepth = 0 ∧
    (o.afterwards.nav sub).read = defaultRead ∧ SortsBy key (o.afterwards.nav sub).sort ∧ (o.afterwards.nav sub).sub = sub := by
  refine ⟨hp.depth, ?_, hp.sort, rfl⟩
  funext l e
  exact hp.read (l, e)

theorem plain_stat {key} {o : Options κ} (hp : o.Plain key) (c : Nav) (disk : Disk) (p : Path) (g : FS) (h : disk p = .ok g) :
    statOf c o.afterwards disk p = .found (prep c g) := by
  have : o.afterwards.hooks.queryStatus.invoke (disk p) = .ok g := by rw [← h]; exact hp.status _
  simp only [statOf, this]

/-- What a plain first session delivers. -/
theorem plain_primary {key} {P : Platform κ} {u : Using κ} {settings} {disk : Disk} {x : κ} {o : Options κ} {h}
    (hu : u.o = none) (ho : getOptions P settings = (o, none)) (hp : o.Plain key) (hsub : u.sub ≠ .undefined)
    (hh : u.handler = some h) (hnil : Handler.Nil h) {pre fs} (htree : u.tree = pre ++ [fs.name]) (hdisk : disk u.tree = .ok fs)
    (hdistinct : fs.Distinct) :
    (walkPrime P (.using u) settings disk x).verdict = .done none ∧
    (walkPrime P (.using u) settings disk x).calls = ((prep (o.afterwards.nav u.sub) fs).list pre).filter (shows (o.afterwards.nav u.sub)) := by
  obtain ⟨n1, n2, n3, n4⟩ := plain_nav hp u.sub
  have hperm := n3.permutes
  have hsel := defaultRead_selects _ n2
  have hv : u.validate = none := by
    have hne : u.tree ≠ [] := by rw [htree]; simp
    simp [Using.validate, hne, hsub, hh]
  have hpp : primaryPlatform P (.using u) settings = (o, none) := by simp [primaryPlatform, hu, hv, ho]
  have hb := plain_built (P := P) hp u.sub none hsub
  generalize hhb : ({ inclusiveWake := o.hibernate.inclusiveWake, inclusiveSleep := o.hibernate.inclusiveSleep } : HiberOpts) = hb0 at hb
  have hw : hb0.wakeAt = none := by rw [← hhb]
  have hsl : hb0.sleepAt = none := by rw [← hhb]
  generalize hc : o.afterwards.nav u.sub = c at *
  have hord : (plainSetup c none hb0).Ordinary := Or.inl rfl
  have hacc := plainNil_accepting hw hsl hord (o.afterwards.client h) (fun _ => none) u.tree [] hnil hp.skip
  have hs0 := plain_start hord (o.afterwards.client h) x (fun _ => none) 0 u.tree
  have hfine : (prep c fs).Fine c := ⟨prep_wf c hperm hsel fs, prep_distinct c hperm hsel fs hdistinct,
    fun _ => prep_shut c hperm n2 fs⟩
  have hpre : u.tree.dropLast = pre := by rw [htree, List.dropLast_concat]
  obtain ⟨g1, g2, g3, g4⟩ := traverse_accepting c _ n1 hacc pre _ hfine _ hs0
  have hrun : runTop (plainSetup c none hb0) o.afterwards (o.afterwards.client h) disk u.tree []
      ⟨0, ((plainSetup c none hb0).world x (fun _ => none)).publish (o.afterwards.client h) (.begin u.tree), []⟩ =
      (.done none, (traverse c ((plainSetup c none hb0).env (o.afterwards.client h) u.tree []) [] pre (prep c fs)
        ⟨0, ((plainSetup c none hb0).world x (fun _ => none)).publish (o.afterwards.client h) (.begin u.tree), []⟩).2) := by
    have := plain_stat hp c disk u.tree fs hdisk
    simp only [runTop, plainSetup, this, top, hpre] at g1 ⊢
    rw [g1]
  simp only [walkPrime, buildPrimary, hpp, hb, hh, Option.getD_some, Built.navigate, hrun]
  refine ⟨trivial, ?_⟩
  unfold Report.calls
  simp only [publish_hits]
  rw [calls_shown (plain_called hw hsl g3.1), g4]
  simp [shown, invoked, calls]

/-- The second session, for the two subscriptions that deliver files: `R` is what it lists. -/
theorem spawn_core {key} {P : Platform κ} {r : Relic κ} {settings files} {disk : Disk} {x : κ} {o o₁ : Options κ} {h} {s : Saved}
    {pre : Path} {fs : FS} (hl : unmarshal P (files r.from) = .ok (o₁, s)) (ho : bindOptions o₁ settings = (o, none)) (hp : o.Plain key)
    (hsys : r.systems s.active.tree = some (s.traverseRelative, s.resumeRelative)) (hst : r.strategy = .spawn)
    (hh : r.handler = some h) (hnil : Handler.Nil h) (hstree : s.active.tree = pre ++ [fs.name])
    (hsub : s.active.sub = .universal ∨ s.active.sub = .files)
    (hdisk : ∀ p g, FS.At pre fs p g → disk p = .ok g) (hdistinct : fs.Distinct) (hkeys : fs.KeysDiffer key)
    (hpath : s.active.currentPath ∈ (fs.nodes pre).map Prod.fst) (hroot : s.active.currentPath ≠ pre ++ [fs.name]) :
    let c := o.afterwards.nav s.active.sub
    let rest := ((prep c fs).list pre).dropWhile (fun k => k.1 != s.active.currentPath)
    let rep := walkResume P (.relic r) settings files disk x
    ∃ R, rep.verdict = .done none ∧ rep.complete = true ∧ rep.calls = R.filter (shows c) ∧ (R.map Prod.fst).Nodup ∧
      (ByteOrdered c pre fs s.active.currentPath → R = rest) ∧
      ((∀ k, k ∈ R ↔ k ∈ rest) → ByteOrdered c pre fs s.active.currentPath) := by
  intro c rest rep
  have hplat : resumePlatform P r settings (files r.from) = .ok (o, s.active) := by
    rw [platform_loaded hl ho]
    simp only [hsys, ne_eq, not_true_eq_false, if_false]
  have hb := plain_built (P := P) hp s.active.sub (some .spawn) (by rcases hsub with h | h <;> simp [h])
  generalize hhb : ({ inclusiveWake := o.hibernate.inclusiveWake, inclusiveSleep := o.hibernate.inclusiveSleep } : HiberOpts) = hb0 at hb
  have hw : hb0.wakeAt = none := by rw [← hhb]
  have hsl : hb0.sleepAt = none := by rw [← hhb]
  obtain ⟨n1, n2, n3, n4⟩ := plain_nav hp s.active.sub
  have hord : (plainSetup c (some .spawn) hb0).Ordinary := Or.inr rfl
  have hacc := plainNil_accepting hw hsl hord (o.afterwards.client h) s.active.metrics s.active.tree s.active.currentPath hnil hp.skip
  have hs0 := plain_start hord (o.afterwards.client h) x s.active.metrics s.active.depth s.active.tree
  obtain ⟨s', R, g1, g2, g3, g4, g5, g6⟩ := crown_fs key n1 n2 n3 (by rw [n4]; exact hsub) hdistinct hkeys hdisk
    (fun p g hg => plain_stat hp c disk p g (hdisk p g hg)) hacc o.afterwards.fault s.active.currentPath hpath hroot _ hs0
  have hrun : resumeRun (plainSetup c (some .spawn) hb0) o.afterwards (o.afterwards.client h) disk .spawn s.active
      (((plainSetup c (some .spawn) hb0).world x s.active.metrics).publish (o.afterwards.client h) (.begin s.active.tree)) =
      (.done none, true, s') := by
    rw [← hstree] at g1
    exact g1
  have hrep : rep.verdict = .done none ∧ rep.complete = true ∧ rep.calls = R.filter (shows c) := by
    simp only [rep, walkResume, hplat, hst, hb, Built.resume, if_true, hh, Option.getD_some]
    simp only [c] at hrun
    simp only [hrun]
    refine ⟨trivial, trivial, ?_⟩
    unfold Report.calls
    simp only [publish_hits]
    rw [calls_shown (plain_called hw hsl g2.1), g3]
    simp [shown, invoked, calls, c]
  exact ⟨R, hrep.1, hrep.2.1, hrep.2.2, g4, g5, g6⟩

/-- **C20** A first session `u` (no filter, hibernation, sampling or depth limit; handlers that return nil; `key` is what
entries are sorted by) would call the handler for `all`, in that order. A session that was interrupted on the way is resumed
by spawning from the saved current path `p` on an unchanged file system. The resume ends without error, says it is complete
and calls the handler for no node twice. It calls it for exactly the nodes of `all` from `p` on, and in their order, if along
`p` the entries of every directory are visited in the order of the bytes of their names; and if they are not, it does not:
some node not reached yet is left out, or some node already reached is delivered.

The full property claims this of every tree, of every saved path including the tree path (`C20_root_resumes_nothing`) and of
every subscription (`C20_directories_get_files`): that is false of the code. -/
theorem C20_spawn_partial (P : Platform κ) (key : String → String) (u : Using κ) (settings₀ settings : List (Option (Setting κ)))
    (disk : Disk) (x₀ x : κ) (o₀ o : Options κ) (h₀ h : κ → Parcel → κ × Reply) (r : Relic κ) (files : String → Except Err Json)
    (o₁ : Options κ) (s : Saved) (pre : Path) (fs : FS)
    -- the first session
    (hu : u.o = none) (hsub : u.sub = .universal) (ho₀ : getOptions P settings₀ = (o₀, none)) (hp₀ : o₀.Plain key)
    (hh₀ : u.handler = some h₀) (hnil₀ : Handler.Nil h₀) (htree : u.tree = pre ++ [fs.name])
    -- the second
    (hl : unmarshal P (files r.from) = .ok (o₁, s)) (ho : bindOptions o₁ settings = (o, none)) (hp : o.Plain key)
    (hsys : r.systems s.active.tree = some (s.traverseRelative, s.resumeRelative)) (hst : r.strategy = .spawn)
    (hh : r.handler = some h) (hnil : Handler.Nil h) (hsame : o.afterwards.nav .universal = o₀.afterwards.nav .universal)
    (hstree : s.active.tree = u.tree) (hssub : s.active.sub = .universal)
    -- the file system
    (hdisk : ∀ p g, FS.At pre fs p g → disk p = .ok g) (hdistinct : fs.Distinct) (hkeys : fs.KeysDiffer key)
    -- the saved path: any node but the root
    (hpath : s.active.currentPath ∈ (fs.nodes pre).map Prod.fst) (hroot : s.active.currentPath ≠ u.tree) :
    let all := (walkPrime P (.using u) settings₀ disk x₀).calls
    let rest := all.dropWhile (fun k => k.1 != s.active.currentPath)
    let rep := walkResume P (.relic r) settings files disk x
    rep.verdict = .done none ∧ rep.complete = true ∧ (rep.calls.map Prod.fst).Nodup ∧
    (ByteOrdered (o.afterwards.nav .universal) pre fs s.active.currentPath → rep.calls = rest) ∧
    ((∀ k, k ∈ rep.calls ↔ k ∈ rest) → ByteOrdered (o.afterwards.nav .universal) pre fs s.active.currentPath) := by
  have hd0 : disk u.tree = .ok fs := by rw [htree]; exact hdisk _ _ (.here pre fs)
  obtain ⟨-, hall⟩ := plain_primary (x := x₀) hu ho₀ hp₀ (by simp [hsub]) hh₀ hnil₀ htree hd0 hdistinct
  intro all rest rep
  simp only [rest, all, hall, hsub]
  rw [htree] at hroot hstree
  obtain ⟨R, h1, h2, h3, h4, h5, h6⟩ := spawn_core (x := x) hl ho hp hsys hst hh hnil hstree (Or.inl hssub) hdisk
    hdistinct hkeys hpath hroot
  simp only [hssub] at h3 h5 h6
  have hall' : ∀ l : List (Path × Bool), l.filter (shows (o.afterwards.nav .universal)) = l := by
    intro l; rw [List.filter_eq_self]; intro a _; simp [shows, Options.nav]
  rw [hall'] at h3
  rw [← hsame, hall', show rep.calls = R from h3]
  exact ⟨h1, h2, h4, h5, h6⟩

/-- **C20** The same for the Files subscription, whose sessions list the files of what a Universal session lists: if along the
saved path names come in the order of their bytes, the resume delivers the files from the saved path on, in order. -/
theorem C20_spawn_files_partial (P : Platform κ) (key : String → String) (u : Using κ) (settings₀ settings : List (Option (Setting κ)))
    (disk : Disk) (x₀ x : κ) (o₀ o : Options κ) (h₀ h : κ → Parcel → κ × Reply) (r : Relic κ) (files : String → Except Err Json)
    (o₁ : Options κ) (s : Saved) (pre : Path) (fs : FS)
    (hu : u.o = none) (ho₀ : getOptions P settings₀ = (o₀, none)) (hp₀ : o₀.Plain key)
    (hh₀ : u.handler = some h₀) (hnil₀ : Handler.Nil h₀) (htree : u.tree = pre ++ [fs.name])
    (hl : unmarshal P (files r.from) = .ok (o₁, s)) (ho : bindOptions o₁ settings = (o, none)) (hp : o.Plain key)
    (hsys : r.systems s.active.tree = some (s.traverseRelative, s.resumeRelative)) (hst : r.strategy = .spawn)
    (hh : r.handler = some h) (hnil : Handler.Nil h) (hsame : o.afterwards.nav .files = o₀.afterwards.nav .files)
    (hstree : s.active.tree = u.tree) (hssub : s.active.sub = .files)
    (hdisk : ∀ p g, FS.At pre fs p g → disk p = .ok g) (hdistinct : fs.Distinct) (hkeys : fs.KeysDiffer key)
    (hpath : s.active.currentPath ∈ (fs.nodes pre).map Prod.fst) (hroot : s.active.currentPath ≠ u.tree) :
    -- everything there is, and the files among it, in the order of the first session
    let whole := (walkPrime P (.using { u with sub := .universal }) settings₀ disk x₀).calls
    let all := (walkPrime P (.using { u with sub := .files }) settings₀ disk x₀).calls
    let rep := walkResume P (.relic r) settings files disk x
    all = whole.filter (fun k => !k.2) ∧
    rep.verdict = .done none ∧ rep.complete = true ∧ (rep.calls.map Prod.fst).Nodup ∧
    (ByteOrdered (o.afterwards.nav .files) pre fs s.active.currentPath →
      rep.calls = (whole.dropWhile (fun k => k.1 != s.active.currentPath)).filter (fun k => !k.2)) := by
  have hd0 : disk u.tree = .ok fs := by rw [htree]; exact hdisk _ _ (.here pre fs)
  intro whole all rep
  obtain ⟨-, hwhole⟩ := plain_primary (u := { u with sub := .universal }) (x := x₀) hu ho₀ hp₀ (by simp) hh₀ hnil₀ htree hd0 hdistinct
  obtain ⟨-, hall⟩ := plain_primary (u := { u with sub := .files }) (x := x₀) hu ho₀ hp₀ (by simp) hh₀ hnil₀ htree hd0 hdistinct
  rw [htree] at hroot hstree
  obtain ⟨R, h1, h2, h3, h4, h5, -⟩ := spawn_core (x := x) hl ho hp hsys hst hh hnil hstree (Or.inr hssub) hdisk
    hdistinct hkeys hpath hroot
  simp only [hssub] at h3 h5
  have e1 : ∀ l : List (Path × Bool), l.filter (shows (o₀.afterwards.nav .universal)) = l := by
    intro l; rw [List.filter_eq_self]; intro a _; simp [shows, Options.nav]
  have e2 : ∀ l : List (Path × Bool), l.filter (shows (o₀.afterwards.nav .files)) = l.filter (fun k => !k.2) := by
    intro l; apply List.filter_congr; intro a _; simp [shows, Options.nav]
  have e3 : prep (o₀.afterwards.nav .universal) fs = prep (o₀.afterwards.nav .files) fs :=
    (prep_files_universal (o₀.afterwards.nav .files) fs).symm
  rw [hsame, e2] at h3
  rw [hsame] at h5 ⊢
  simp only [e1, e3] at hwhole
  simp only [e2] at hall
  refine ⟨?_, h1, h2, ?_, ?_⟩
  · simp only [all, whole, hall, hwhole]
  · rw [show rep.calls = _ from h3]
    exact h4.sublist (List.filter_sublist.map _)
  · intro hb
    rw [show rep.calls = _ from h3, h5 hb]
    simp only [whole, hwhole]

/-- **C20, what is false of the root**: a state saved for the tree path itself, which is what the panic of a direct child of
the root leaves (C18), resumes nothing: no handler call, no error, and the session says it is complete. Whatever is on the
disk, whatever the options. -/
theorem C20_root_resumes_nothing (P : Platform κ) (r : Relic κ) (settings : List (Option (Setting κ))) (files : String → Except Err Json)
    (disk : Disk) (x : κ) (hst : r.strategy = .spawn) (o : Options κ) (s : Saved) (hl : unmarshal P (files r.from) = .ok (o, s))
    (hroot : s.active.currentPath = s.active.tree) :
    let rep := walkResume P (.relic r) settings files disk x
    rep.calls = [] ∧ (∀ e, rep.verdict = .done e → e = none ∧ rep.complete = true) := by
  intro rep
  have hcrown : ∀ (S : Setup) (o : Options κ) (C : Client κ) (w : World κ),
      resumeRun S o C disk .spawn s.active w = (.done none, true, ⟨s.active.depth, w, []⟩) := by
    intro S o C w
    simp only [resumeRun]
    cases hr : s.active.currentPath.reverse with
    | nil =>
      have : s.active.tree = [] := by rw [← hroot]; simpa using hr
      rw [crown, if_pos this]
    | cons a as =>
      have : (a :: as).reverse = s.active.tree := by rw [← hr, List.reverse_reverse, hroot]
      rw [crown, if_pos this]
  simp only [rep, walkResume]
  cases hpl : resumePlatform P r settings (files r.from) with
  | error e => simp [Report.calls]
  | ok q =>
    obtain ⟨o', a⟩ := q
    obtain ⟨o2, s2, h1, h2, -⟩ := platform_ok hpl
    rw [hl] at h1
    cases h1
    subst h2
    simp only [hst]
    cases hb : buildRest P s.active.sub (some .spawn) o'.afterwards with
    | crash => simp [Built.resume, Report.calls]
    | hades e => simp [Built.resume, Report.calls]
    | stillborn e o2 => simp [Built.resume, Report.calls]
    | ready S o2 =>
      simp only [Built.resume, if_true, hcrown]
      refine ⟨by simp [Report.calls, Setup.world], ?_⟩
      intro e he
      simp only [Verdict.done.injEq] at he
      exact ⟨he.symm, trivial⟩

/-! ### Cases -/

/-- A sort that can be evaluated. -/
def insertBy (key : String → String) (t : Tree) : List Tree → List Tree
  | [] => [t]
  | a :: as => if key a.name < key t.name then a :: insertBy key t as else t :: a :: as
def insertSort (key : String → String) (l : List Tree) : List Tree := l.foldr (insertBy key) []

theorem insertSort_sorts (key : String → String) : SortsBy key (insertSort key) := by
  have hperm : ∀ t l, (insertBy key t l).Perm (t :: l) := by
    intro t l
    induction l with
    | nil => exact .refl _
    | cons a as ih =>
      simp only [insertBy]
      split
      · exact (ih.cons a).trans (List.Perm.swap _ _ _)
      · exact .refl _
  have hpw : ∀ t l, l.Pairwise (fun a b => ¬ key b.name < key a.name) →
      (insertBy key t l).Pairwise (fun a b : Tree => ¬ key b.name < key a.name) := by
    intro t l
    induction l with
    | nil => intro _; simp [insertBy]
    | cons a as ih =>
      intro h
      rw [List.pairwise_cons] at h
      simp only [insertBy]
      split
      · rename_i hlt
        rw [List.pairwise_cons]
        refine ⟨fun b hb => ?_, ih h.2⟩
        rcases List.mem_cons.1 ((hperm t as).mem_iff.1 hb) with rfl | hb
        · exact fun h2 => String.lt_irrefl _ (String.lt_trans h2 hlt)
        · exact h.1 b hb
      · rename_i hge
        rw [List.pairwise_cons, List.pairwise_cons]
        refine ⟨fun b hb => ?_, h.1, h.2⟩
        rcases List.mem_cons.1 hb with rfl | hb
        · exact hge
        · intro hbt
          rcases string_le_iff.1 (String.not_lt.1 hge) with hta | hta
          · exact h.1 b hb (String.lt_trans hbt hta)
          · exact h.1 b hb (hta ▸ hbt)
  intro l
  induction l with
  | nil => exact ⟨.refl _, .nil⟩
  | cons a as ih => exact ⟨(hperm _ _).trans (ih.1.cons a), hpw _ _ ih.2⟩

/-- A platform that sorts. -/
def sortPlatform : Platform Nat := { toyPlatform with sortSlice := insertSort }

/-- A universal session saved in the directory `p`. -/
def savedAt (tree p : Path) (sub : Subscription) : Saved where
  active := { tree := tree, sub := sub, hibernation := .retired, currentPath := p, isDir := true, depth := p.length - 1,
              metrics := fun _ => none }
  traverseRelative := false
  resumeRelative := false

/-- Its file. -/
def savedFile (o : Options Nat) (s : Saved) : String → Except Err Json := fun _ =>
  match marshal o s with | .ok d => .ok d | .error _ => .error (.code 5)

/-- A disk that holds one tree. -/
def diskOf (pre : Path) (fs : FS) : Disk := fun p =>
  if pre ++ [fs.name] <+: p then
    match go (p.drop (pre.length + 1)) fs with | some g => .ok g | none => .error (.code 2)
  else .error (.code 2)
where
  go : List String → FS → Option FS
    | [], f => some f
    | a :: as, .dir _ _ _ kids => (kids.find? (fun k => k.name == a)).bind (go as)
    | _ :: _, .file .. => none

theorem diskOf_go {pre fs p g} (h : FS.At pre fs p g) : fs.Distinct → diskOf.go (p.drop (pre.length + 1)) fs = some g := by
  induction h with
  | here pre f => intro _; simp [diskOf.go]
  | @inside pre n ie re kids k p g hk h ih =>
    intro hd
    rw [FS.Distinct, FS.distinctL_iff] at hd
    obtain ⟨r, hr⟩ := h.pre_prefix
    have ih := ih (hd.2 k hk)
    subst hr
    have e1 : (pre ++ [n] ++ [k.name] ++ r).drop (pre.length + 1) = k.name :: r := by
      rw [List.append_assoc, show pre.length + 1 = (pre ++ [n]).length by simp, List.drop_left]
      rfl
    have e2 : (pre ++ [n] ++ [k.name] ++ r).drop ((pre ++ [n]).length + 1) = r := by
      rw [show (pre ++ [n]).length + 1 = (pre ++ [n] ++ [k.name]).length by simp, List.drop_left]
    rw [e2] at ih
    rw [e1]
    have : kids.find? (fun j => j.name == k.name) = some k := by
      cases hf : kids.find? (fun j => j.name == k.name) with
      | none => exact absurd (List.find?_eq_none.1 hf k hk) (by simp)
      | some j =>
        have h4 := List.mem_of_find?_eq_some hf
        have h5 : j.name = k.name := by simpa using List.find?_some hf
        rw [nodup_map_inj hd.1 h4 hk h5]
    simp only [diskOf.go, this, Option.bind_some, ih]

theorem diskOf_holds {pre : Path} {fs : FS} (hd : fs.Distinct) : ∀ p g, FS.At pre fs p g → diskOf pre fs p = .ok g := by
  intro p g h
  simp only [diskOf, if_pos h.pre_prefix, diskOf_go h hd]

theorem plain_default (P : Platform Nat) (hsort : ∀ key, SortsBy key (P.sortSlice key)) (b : Behaviours)
    (hb : b.cascade.afterwards.depth = 0) : Options.Plain P.engine.lower { defaultOptions P with behaviours := b } where
  custom := rfl
  node := rfl
  child := rfl
  sample := rfl
  wakeAt := rfl
  sleepAt := rfl
  sampling := rfl
  depth := hb
  read _ := rfl
  status _ := rfl
  sort := hsort _
  skip _ _ _ := rfl

/-- Not vacuous: everything assumed by C20 is so of a session on the demo tree stopped in /r/a/b, and along that path names
come in the order of their bytes. -/
example :
    let P := sortPlatform
    let u := toyUsing .universal
    let s := savedAt ["r"] ["r", "a", "b"] .universal
    let r := toyRelic .spawn
    let files := savedFile (defaultOptions P) s
    ∃ o₀ o₁ o, getOptions P [] = (o₀, none) ∧ o₀.Plain P.engine.lower ∧ unmarshal P (files r.from) = .ok (o₁, s) ∧
      bindOptions o₁ [] = (o, none) ∧ o.Plain P.engine.lower ∧
      r.systems s.active.tree = some (s.traverseRelative, s.resumeRelative) ∧ u.tree = [] ++ [Demo.fs.name] ∧
      o.afterwards.nav .universal = o₀.afterwards.nav .universal ∧
      (∀ p g, FS.At [] Demo.fs p g → diskOf [] Demo.fs p = .ok g) ∧ Demo.fs.KeysDiffer P.engine.lower ∧
      s.active.currentPath ∈ (Demo.fs.nodes []).map Prod.fst ∧ s.active.currentPath ≠ u.tree ∧
      (walkPrime P (.using u) [] (diskOf [] Demo.fs) 0).calls.map Prod.fst =
        [["r"], ["r", "a"], ["r", "a", "b"], ["r", "a", "b", "y"], ["r", "a", "b", "z"], ["r", "a", "x"], ["r", "c"], ["r", "c", "w"],
          ["r", "f"], ["r", "g"]] ∧
      (walkResume P (.relic r) [] files (diskOf [] Demo.fs) 0).calls.map Prod.fst =
        [["r", "a", "b"], ["r", "a", "b", "y"], ["r", "a", "b", "z"], ["r", "a", "x"], ["r", "c"], ["r", "c", "w"],
          ["r", "f"], ["r", "g"]] := by
  intro P u s r files
  obtain ⟨doc, h1, h2⟩ := roundTrip P (defaultOptions P) s
  have hf : files r.from = .ok doc := by simp only [files, savedFile, h1]
  refine ⟨defaultOptions P, fromJSON P (toJSON (defaultOptions P)), fromJSON P (toJSON (defaultOptions P)), rfl,
    plain_default P insertSort_sorts _ rfl, by rw [hf]; exact h2, rfl, ?_, rfl, rfl, rfl, diskOf_holds Demo.distinct, ?_, ?_, ?_, ?_, ?_⟩
  · exact ⟨rfl, rfl, rfl, rfl, rfl, rfl, rfl, rfl, fun _ => rfl, fun _ => rfl, insertSort_sorts _, fun _ _ _ => rfl⟩
  · refine ⟨fun b => ?_, ⟨fun b => ?_, trivial, ⟨fun b => ?_, trivial, trivial, trivial⟩, trivial⟩, trivial, ⟨fun b => ?_, trivial, trivial⟩,
      trivial, trivial, trivial⟩ <;> cases b <;> decide +kernel
  all_goals decide +kernel

/-- A directory z and a file a: the directory comes first, though its name is greater. -/
def Demo.fsZ : FS := .dir "r" none none [.dir "z" none none [.file "p" none none, .file "q" none none], .file "a" none none]
/-- The other way round. -/
def Demo.fsB : FS := .dir "r" none none [.dir "b" none none [.file "p" none none], .file "z" none none]

/-- **C20, what is false**: the file a was not reached when /r/z was saved (the handler panicked at /r/z/q) and is not
delivered by the resume. With SortFilesFirst the file z had been delivered when /r/b was saved, and is delivered again.
What was delivered inside the saved directory (/r/z/p) is delivered again as well. A file sibling is delivered to a
Directories session. A handler that returns SkipDir for a directory ends the whole resume. -/
theorem C20_false_in_general :
    let P := sortPlatform
    let go (o : Options Nat) (sub : Subscription) (fs : FS) (p : Path) (answer : Path → Reply) :=
      walkResume P (.relic { toyRelic .spawn with handler := some (fun k q => (k + 1, answer q.node.path)) }) []
        (savedFile o (savedAt ["r"] p sub)) (diskOf [] fs) 0
    let filesFirst : Options Nat := { defaultOptions P with behaviours := { keepTrailingSep := true, sortFilesFirst := true } }
    -- the first session
    ((walkPrime P (.using (toyUsing .universal)) [] (diskOf [] Demo.fsZ) 0).calls.map Prod.fst =
      [["r"], ["r", "z"], ["r", "z", "p"], ["r", "z", "q"], ["r", "a"]]) ∧
    -- left out, and repeated
    ((go (defaultOptions P) .universal Demo.fsZ ["r", "z"] Demo.quiet).calls.map Prod.fst =
      [["r", "z"], ["r", "z", "p"], ["r", "z", "q"]]) ∧
    ((walkPrime P (.using { toyUsing .universal with o := some filesFirst }) [] (diskOf [] Demo.fsB) 0).calls.map Prod.fst =
      [["r"], ["r", "z"], ["r", "b"], ["r", "b", "p"]]) ∧
    ((go filesFirst .universal Demo.fsB ["r", "b"] Demo.quiet).calls.map Prod.fst = [["r", "z"], ["r", "b"], ["r", "b", "p"]]) ∧
    -- files for Directories
    ((go (defaultOptions P) .directories Demo.fsB ["r", "b"] Demo.quiet).calls = [(["r", "b"], true), (["r", "z"], false)]) ∧
    -- SkipDir
    ((go (defaultOptions P) .universal Demo.fs ["r", "a"] (Demo.at_ ["r", "c"] (.ok (some .skipDir)))).calls.map Prod.fst =
      [["r", "a"], ["r", "a", "b"], ["r", "a", "b", "y"], ["r", "a", "b", "z"], ["r", "a", "x"], ["r", "c"]]) ∧
    (go (defaultOptions P) .universal Demo.fs ["r", "a"] (Demo.at_ ["r", "c"] (.ok (some .skipDir)))).verdict = .done (some .skipDir) ∧
    (go (defaultOptions P) .universal Demo.fs ["r", "a"] (Demo.at_ ["r", "c"] (.ok (some .skipDir)))).complete = false := by
  decide +kernel

end Traverse
