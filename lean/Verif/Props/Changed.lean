import Verif.Proofs.Spawn5
import Verif.Props.Ways
import Verif.Props.Fastward
import Verif.Props.LiveResumed
/-
C76: resuming on a file system that changed since the session was interrupted.
-/
namespace Traverse
variable {κ : Type}

/-- What can be listed. -/
theorem list_readable {disk : Disk} {q : Path} (h : ∀ e, ¬ disk.Unreadable q e) : (disk.list q).2 = none ∧ ∃ g, disk q = .ok g := by
  unfold Disk.list
  rcases hq : disk q with e | (⟨n, i, _ | e⟩ | ⟨n, i, _ | e, kids⟩)
  · exact absurd (.inl hq) (h e)
  · exact ⟨rfl, _, rfl⟩
  · exact absurd (.inr (.inr ⟨n, i, hq⟩)) (h e)
  · exact ⟨rfl, _, rfl⟩
  · exact absurd (.inr (.inl ⟨n, i, kids, hq⟩)) (h e)

/-- Crown on what the disk holds now. -/
theorem crown_now {σ : Type} (key) {c : Nav} {stat disk} {pre : Path} {fs : FS} (hdepth : c.maxDepth = 0) (hread : c.read = defaultRead)
    (hsort : SortsBy key c.sort) (hsub : c.sub = .universal ∨ c.sub = .files)
    (hdistinct : fs.Distinct) (hkeys : fs.KeysDiffer key) (hdisk : ∀ p g, FS.At pre fs p g → disk p = .ok g)
    (honly : ∀ p g, pre ++ [fs.name] <+: p → disk p = .ok g → FS.At pre fs p g)
    (hstat : ∀ p g, FS.At pre fs p g → stat p = .found (prep c g)) {env : Env σ} {I : St σ → Prop}
    (hI : Accepting c env I) (fault) (p : Path) (hp : pre ++ [fs.name] <+: p) (hroot : p ≠ pre ++ [fs.name])
    (hds : ".DS_Store" ∉ p.dropLast.drop (pre.length + 1))
    (hways : ∀ q e, pre ++ [fs.name] <+: q → q <+: p → q ≠ p → ¬ disk.Unreadable q e)
    (s : St σ) (hs : I s) :
    ∃ (s' : St σ) (R : List (Path × Bool)), crown c env fault stat disk (pre ++ [fs.name]) p.reverse true s = (.done none, true, s') ∧ I s' ∧
      shown s'.log = shown s.log ++ R.filter (shows c) ∧ (R.map Prod.fst).Nodup ∧
      ∀ k, k ∈ R ↔ k ∈ fs.nodes pre ∧ p ≤ k.1 := by
  have hperm := hsort.permutes
  have hsel := defaultRead_selects c hread
  have hd := prep_distinct c hperm hsel fs hdistinct
  have hne : c.sub ≠ .directories ∧ c.sub ≠ .directoriesWithFiles := by rcases hsub with h | h <;> simp [h]
  have hn : (prep c fs).name = fs.name := (prep_entry c fs).1
  have hall : ∀ k, k ∈ (prep c fs).list pre ↔ k ∈ fs.nodes pre := by
    intro k
    rw [← items_list c hdepth (prep c fs) [] pre 0]
    exact (items_nodes c hperm hread hdepth hne.1 hne.2 fs [] pre 0).mem_iff
  obtain ⟨bs, rfl⟩ := hp
  obtain ⟨as, a, rfl⟩ : ∃ as a, bs = as ++ [a] := by
    rcases List.eq_nil_or_concat bs with rfl | ⟨as, a, rfl⟩
    · simp at hroot
    · exact ⟨as, a, List.concat_eq_append⟩
  have e1 : pre ++ [fs.name] ++ (as ++ [a]) = pre ++ fs.name :: (as ++ [a]) := by simp
  have e2 : (pre ++ [fs.name] ++ (as ++ [a])).dropLast.drop (pre.length + 1) = as := by
    rw [e1, path_dropLast, show pre ++ fs.name :: as = (pre ++ [fs.name]) ++ as by simp,
      show pre.length + 1 = (pre ++ [fs.name]).length by simp, List.drop_left]
  rw [e2] at hds
  have hway : ∀ cs, cs <+: as → ∀ e, ¬ disk.Unreadable (pre ++ fs.name :: cs) e := by
    intro cs hcs e
    obtain ⟨z, rfl⟩ := hcs
    refine hways _ e ⟨cs, by simp⟩ ⟨z ++ [a], by simp⟩ ?_
    intro h
    have := congrArg List.length h
    simp at this
  obtain ⟨hl, g, hg⟩ := list_readable (hway as (List.prefix_refl _))
  have hat := honly _ g ⟨as, by simp⟩ hg
  have hmem := at_nodes as pre fs g hat hds (by
    intro cs f hcs hf n i e kids hfe
    subst hfe
    exact hway cs hcs.1 e (.inr (.inl ⟨n, i, kids, hdisk _ _ hf⟩))) hdistinct
  obtain ⟨cs, v, h1, h2, -⟩ := mem_list_down _ hd pre _ ((hall _).2 hmem)
  have hcs : cs = as := by
    simp only [hn] at h1
    exact ((List.cons.inj (List.append_cancel_left h1)).2).symm
  subst hcs
  have hat' := down_at _ _ pre v h2
  rw [hn] at hat'
  obtain ⟨g', hg', rfl⟩ := hat'.prep hperm hsel fs rfl
  have hgg : g' = g := hg'.unique hdistinct _ hat
  subst hgg
  have hf := following_listed key c disk _ g' hread hsort hsub (hat.keysDiffer hkeys) hg hl a true
  simp only [if_true] at hf
  have H := spawnable_of key c stat disk pre fs hdepth hread hsort hsub hdistinct hkeys hdisk hstat
  obtain ⟨s', g1, g2, g3⟩ := crown_gone H hI fault cs a _ h2 (by rw [hn]; exact hf) s hs
  have hdv := (H.fine _ _ (down_at _ _ pre _ h2)).distinct
  refine ⟨s', _, ?_, g2, g3, spawned_nodup_gone hd pre cs a _ h2 hdv (down_name cs _ _ h2), ?_⟩
  · rw [e1, ← hn]; exact g1
  · intro k
    rw [mem_spawned cs a _ pre _ hd h2 k, hall, hn, e1]

/-- **C76** (spawn) A Universal or Files session that was interrupted, its current path `p` saved, is resumed by spawning. Whatever
happened to the file system since then, `p` itself may be gone: `fs` is what is below the tree path now. Navigate returns nil if and
only if the tree path and every path between it and `p` can be listed now. If it does, the session says it is complete and calls the
handler once for each of exactly the entries there are now (files only for Files) that come at or after `p` in the order of the
bytes of the names on their paths: whatever was created there is delivered, whatever was removed is not, and whatever was removed
or created before `p` makes no difference. (Plain options: no filter, hibernation, sampling or depth limit; a handler that returns
nil; the order the first session went in is C20's.) -/
theorem C76_spawned (P : Platform κ) (key : String → String) (settings : List (Option (Setting κ)))
    (disk : Disk) (x : κ) (o : Options κ) (h : κ → Parcel → κ × Reply) (r : Relic κ) (files : String → Except Err Json)
    (o₁ : Options κ) (s : Saved) (pre : Path) (fs : FS)
    (hl : unmarshal P (files r.from) = .ok (o₁, s)) (ho : bindOptions o₁ settings = (o, none)) (hp : o.Plain key)
    (hsys : r.systems s.active.tree = some (s.traverseRelative, s.resumeRelative)) (hst : r.strategy = .spawn)
    (hh : r.handler = some h) (hnil : Handler.Nil h) (hssub : s.active.sub = .universal ∨ s.active.sub = .files)
    -- what is there now: `fs`, and below the tree path nothing else
    (hstree : s.active.tree = pre ++ [fs.name]) (hdistinct : fs.Distinct) (hkeys : fs.KeysDiffer key)
    (hdisk : ∀ p g, s.active.tree <+: p → (disk p = .ok g ↔ FS.At pre fs p g))
    -- the saved path: below the tree, in no directory that is hidden
    (hpath : s.active.tree <+: s.active.currentPath) (hroot : s.active.currentPath ≠ s.active.tree)
    (hds : ".DS_Store" ∉ s.active.currentPath.dropLast.drop s.active.tree.length) :
    let rep := walkResume P (.relic r) settings files disk x
    (rep.verdict = .done none ↔
      ∀ q e, s.active.tree <+: q → q <+: s.active.currentPath → q ≠ s.active.currentPath → ¬ disk.Unreadable q e) ∧
    (rep.verdict = .done none → rep.complete = true ∧ (rep.calls.map Prod.fst).Nodup ∧
      ∀ k, k ∈ rep.calls ↔ k ∈ fs.nodes pre ∧ s.active.currentPath ≤ k.1 ∧ (s.active.sub = .files → k.2 = false)) := by
  intro rep
  generalize hc : o.afterwards.nav s.active.sub = c
  have hplat : resumePlatform P r settings (files r.from) = .ok (o, s.active) := by
    rw [platform_loaded hl ho]
    simp only [hsys, ne_eq, not_true_eq_false, if_false]
  have hb := plain_built (P := P) hp s.active.sub (some .spawn) (by rcases hssub with h | h <;> simp [h])
  generalize hhb : ({ inclusiveWake := o.hibernate.inclusiveWake, inclusiveSleep := o.hibernate.inclusiveSleep } : HiberOpts) = hb0 at hb
  have hw : hb0.wakeAt = none := by rw [← hhb]
  have hsl : hb0.sleepAt = none := by rw [← hhb]
  obtain ⟨n1, n2, n3, n4⟩ := plain_nav hp s.active.sub
  rw [hc] at n1 n2 n3 n4 hb
  have hord : (plainSetup c (some .spawn) hb0).Ordinary := Or.inr rfl
  have hacc := plainNil_accepting hw hsl hord (o.afterwards.client h) s.active.metrics s.active.tree s.active.currentPath hnil hp.skip
  have hs0 := plain_start hord (o.afterwards.client h) x s.active.metrics s.active.depth s.active.tree
  have hdisk1 : ∀ p g, FS.At pre fs p g → disk p = .ok g := fun p g hg => (hdisk p g (hstree ▸ hg.pre_prefix)).2 hg
  have hlen : s.active.tree.length = pre.length + 1 := by rw [hstree]; simp
  -- enough that it can be listed
  have key2 : (∀ q e, s.active.tree <+: q → q <+: s.active.currentPath → q ≠ s.active.currentPath → ¬ disk.Unreadable q e) →
      rep.verdict = .done none ∧ rep.complete = true ∧ (rep.calls.map Prod.fst).Nodup ∧
      ∀ k, k ∈ rep.calls ↔ k ∈ fs.nodes pre ∧ s.active.currentPath ≤ k.1 ∧ (s.active.sub = .files → k.2 = false) := by
    intro hways
    obtain ⟨s', R, g1, g2, g3, g4, g5⟩ := crown_now key n1 n2 n3 (by rw [n4]; exact hssub) hdistinct hkeys hdisk1
      (fun p g hpp hg => (hdisk p g (hstree ▸ hpp)).1 hg)
      (fun p g hg => plain_stat hp c disk p g (hdisk1 p g hg)) hacc o.afterwards.fault s.active.currentPath (hstree ▸ hpath)
      (hstree ▸ hroot) (hlen ▸ hds) (hstree ▸ hways) _ hs0
    have hrun : resumeRun (plainSetup c (some .spawn) hb0) o.afterwards (o.afterwards.client h) disk .spawn s.active
        (((plainSetup c (some .spawn) hb0).world x s.active.metrics).publish (o.afterwards.client h) (.begin s.active.tree)) =
        (.done none, true, s') := by
      rw [← hstree] at g1
      exact g1
    have hrep : rep.verdict = .done none ∧ rep.complete = true ∧ rep.calls = R.filter (shows c) := by
      simp only [rep, walkResume, hplat, hst, hb, Built.resume, if_true, hh, Option.getD_some]
      simp only [hrun]
      refine ⟨trivial, trivial, ?_⟩
      unfold Report.calls
      simp only [publish_hits]
      rw [calls_shown (plain_called hw hsl g2.1), g3]
      simp [shown, invoked, calls]
    refine ⟨hrep.1, hrep.2.1, ?_, ?_⟩
    · rw [hrep.2.2]
      exact g4.sublist (List.filter_sublist.map _)
    · intro k
      rw [hrep.2.2, List.mem_filter, g5]
      have : shows c k = true ↔ (s.active.sub = .files → k.2 = false) := by
        simp only [shows, n4]
        cases k.2 <;> simp
      rw [this, and_assoc]
  -- and necessary
  have hnec : rep.verdict = .done none →
      ∀ q e, s.active.tree <+: q → q <+: s.active.currentPath → q ≠ s.active.currentPath → ¬ disk.Unreadable q e := by
    intro hv q e h1 h2 h3
    have hres : Resumed P r settings files (plainSetup c (some .spawn) hb0) o.afterwards h s.active :=
      ⟨hh, o, hplat, by rw [hst]; exact hb⟩
    refine C12_resumed_ways P r settings files disk _ _ h s.active hres hst ?_ x hv q e h1 h2 h3
    intro l e
    have := congrFun (congrFun n2 l) (some e)
    rw [← hc] at this
    exact congrArg Prod.snd this
  exact ⟨⟨hnec, fun hw => (key2 hw).1⟩, fun hv => (key2 (hnec hv)).2⟩

/-- **C76** (fastward) `u` is the session the interrupted one was, run from scratch on the file system as it is now; `all` is what it
delivers. The resume ends without error, says it is complete and delivers exactly what of `all` comes from the saved path on, in
order, if the saved path is among `all`.

The full property claims that all that comes at or after the saved place is delivered also if the saved path is gone, or an error
returned: that is false of the code (`C76_gone`). -/
theorem C76_fastward_partial (P : Platform κ) (key : String → String) (u : Using κ) (settings₀ settings : List (Option (Setting κ)))
    (disk : Disk) (x₀ x : κ) (o₀ o : Options κ) (h₀ h : κ → Parcel → κ × Reply) (r : Relic κ) (files : String → Except Err Json)
    (o₁ : Options κ) (s : Saved) (pre : Path) (fs : FS)
    (hu : u.o = none) (hsub : u.sub ≠ .undefined) (ho₀ : getOptions P settings₀ = (o₀, none)) (hp₀ : o₀.Plain key)
    (hh₀ : u.handler = some h₀) (hnil₀ : Handler.Nil h₀) (htree : u.tree = pre ++ [fs.name])
    (hl : unmarshal P (files r.from) = .ok (o₁, s)) (ho : bindOptions o₁ settings = (o, none)) (hp : o.Plain key)
    (hsys : r.systems s.active.tree = some (s.traverseRelative, s.resumeRelative)) (hst : r.strategy = .fastward)
    (hh : r.handler = some h) (hnil : Handler.Nil h) (hsame : o.afterwards.nav u.sub = o₀.afterwards.nav u.sub)
    (hstree : s.active.tree = u.tree) (hssub : s.active.sub = u.sub)
    -- what is there now
    (hdisk : disk u.tree = .ok fs) (hdistinct : fs.Distinct)
    (hpath : Resumable pre fs.name s.active.currentPath) :
    let all := (walkPrime P (.using u) settings₀ disk x₀).calls
    let rep := walkResume P (.relic r) settings files disk x
    rep.verdict = .done none ∧ rep.complete = true ∧
    (∀ l b m, all = l ++ (s.active.currentPath, b) :: m → s.active.currentPath ∉ l.map Prod.fst →
      rep.calls = (s.active.currentPath, b) :: m) ∧
    -- what is false: the saved path is gone, and with it all that remained
    (s.active.currentPath ∉ all.map Prod.fst → rep.calls = []) := by
  intro all rep
  obtain ⟨h1, h2, h3⟩ := C19_fastward_partial P key u settings₀ settings disk x₀ x o₀ o h₀ h r files o₁ s pre fs hu hsub ho₀ hp₀ hh₀
    hnil₀ htree hl ho hp hsys hst hh hnil hsame hstree hssub hdisk hdistinct hpath
  refine ⟨h1, h2, ?_, fun hn => h3.trans (dropWhile_absent hn)⟩
  intro l b m hall hnot
  refine h3.trans ?_
  show all.dropWhile _ = _
  rw [hall, dropWhile_append_all]
  · simp
  · intro k hk
    simp only [bne_iff_ne, ne_eq]
    intro he
    exact hnot (he ▸ List.mem_map_of_mem hk)

/-- The demo tree later: /r/a/b is gone, /r/a/aa, /r/a/d with a file in it and /r/h are new, /r/c lost its file. -/
def Demo.later (ra : Option Err) : FS :=
  .dir "r" none none [.dir "a" none ra [.dir "d" none none [.file "n" none none], .file "aa" none none, .file "x" none none],
    .dir "c" none none [], .file "f" none none, .file "g" none none, .file "h" none none]

/-- **C76, what is false of fastward**: a session saved in /r/a/b, which was removed since. What remained and what was created is not
delivered, Navigate returns nil and the session says it is complete. Spawning delivers it; and if /r/a cannot be listed any more,
spawning returns the error. -/
theorem C76_gone :
    let go (st : Strategy) (sub : Subscription) (fs : FS) := walkResume sortPlatform (.relic (toyRelic st)) []
      (savedFile (defaultOptions sortPlatform) (savedAt ["r"] ["r", "a", "b"] sub)) (diskOf [] fs) 0
    ((walkPrime sortPlatform (.using (toyUsing .universal)) [] (diskOf [] (Demo.later none)) 0).calls.map Prod.fst =
      [["r"], ["r", "a"], ["r", "a", "d"], ["r", "a", "d", "n"], ["r", "a", "aa"], ["r", "a", "x"], ["r", "c"], ["r", "f"], ["r", "g"],
        ["r", "h"]]) ∧
    (go .fastward .universal (Demo.later none)).calls = [] ∧ (go .fastward .universal (Demo.later none)).verdict = .done none ∧
    (go .fastward .universal (Demo.later none)).complete = true ∧
    (go .spawn .universal (Demo.later none)).calls.map Prod.fst =
      [["r", "a", "d"], ["r", "a", "d", "n"], ["r", "a", "x"], ["r", "c"], ["r", "f"], ["r", "g"], ["r", "h"]] ∧
    (go .spawn .files (Demo.later none)).calls.map Prod.fst =
      [["r", "a", "d", "n"], ["r", "a", "x"], ["r", "f"], ["r", "g"], ["r", "h"]] ∧
    (go .spawn .universal (Demo.later none)).verdict = .done none ∧
    (go .spawn .universal (Demo.later (some (.code 5)))).verdict = .done (some (.code 5)) ∧
    (go .spawn .universal (Demo.later (some (.code 5)))).calls = [] := by
  decide +kernel

theorem Demo.later_distinct (ra) : (Demo.later ra).Distinct := by
  simp [Demo.later, FS.Distinct, FS.DistinctL, FS.name]

/-- Not vacuous: everything assumed of the spawn resume is so of that session, and the directories up to the root can be listed. -/
example (sub : Subscription) (hsub : sub = .universal ∨ sub = .files) :
    let P := sortPlatform
    let s := savedAt ["r"] ["r", "a", "b"] sub
    let r := toyRelic .spawn
    let files := savedFile (defaultOptions P) s
    let disk := diskOf [] (Demo.later none)
    ∃ o₁ o, unmarshal P (files r.from) = .ok (o₁, s) ∧ bindOptions o₁ [] = (o, none) ∧ o.Plain P.engine.lower ∧
      r.systems s.active.tree = some (s.traverseRelative, s.resumeRelative) ∧ (s.active.sub = .universal ∨ s.active.sub = .files) ∧
      s.active.tree = [] ++ [(Demo.later none).name] ∧ (Demo.later none).Distinct ∧ (Demo.later none).KeysDiffer P.engine.lower ∧
      (∀ p g, s.active.tree <+: p → (disk p = .ok g ↔ FS.At [] (Demo.later none) p g)) ∧
      s.active.tree <+: s.active.currentPath ∧ s.active.currentPath ≠ s.active.tree ∧
      ".DS_Store" ∉ s.active.currentPath.dropLast.drop s.active.tree.length ∧
      s.active.currentPath ∉ ((Demo.later none).nodes []).map Prod.fst := by
  intro P s r files disk
  obtain ⟨doc, h1, h2⟩ := roundTrip P (defaultOptions P) s
  have hf : files r.from = .ok doc := by simp only [files, savedFile, h1]
  refine ⟨fromJSON P (toJSON (defaultOptions P)), fromJSON P (toJSON (defaultOptions P)), by rw [hf]; exact h2, rfl, ?_, rfl, hsub, rfl,
    Demo.later_distinct none, ?_, fun p g _ => ⟨diskOf_at p g, diskOf_holds (Demo.later_distinct none) p g⟩, ?_, ?_, ?_, ?_⟩
  · exact ⟨rfl, rfl, rfl, rfl, rfl, rfl, rfl, rfl, fun _ => rfl, fun _ => rfl, insertSort_sorts _, fun _ _ _ => rfl⟩
  · refine ⟨fun b => ?_, ⟨fun b => ?_, ⟨fun b => ?_, trivial, trivial⟩, trivial, trivial, trivial⟩, ⟨fun b => ?_, trivial⟩,
      trivial, trivial, trivial, trivial⟩ <;> cases b <;> decide +kernel
  · exact ⟨["a", "b"], rfl⟩
  · show ["r", "a", "b"] ≠ ["r"]
    decide +kernel
  · show ".DS_Store" ∉ (["r", "a", "b"] : List String).dropLast.drop 1
    decide +kernel
  · show ["r", "a", "b"] ∉ _
    decide +kernel

end Traverse
