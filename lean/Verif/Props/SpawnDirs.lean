import Verif.Proofs.SpawnDirs
import Verif.Props.Spawn
/-
C20: spawning under the two Directories subscriptions.
-/
namespace Traverse
variable {κ : Type}

/-- A spawning resume under the two Directories subscriptions, from the saved path on. -/
theorem spawnD_core {key} {P : Platform κ} {r : Relic κ} {settings files} {disk : Disk} {x : κ} {o o₁ : Options κ} {h} {s : Saved}
    {pre : Path} {fs : FS} (hl : unmarshal P (files r.from) = .ok (o₁, s)) (ho : bindOptions o₁ settings = (o, none)) (hp : o.Plain key)
    (hsys : r.systems s.active.tree = some (s.traverseRelative, s.resumeRelative)) (hst : r.strategy = .spawn)
    (hh : r.handler = some h) (hnil : Handler.Nil h) (htree : s.active.tree = pre ++ [fs.name])
    (hsub : s.active.sub = .directories ∨ s.active.sub = .directoriesWithFiles)
    (hdisk : ∀ p g, FS.At pre fs p g → disk p = .ok g) (hdistinct : fs.Distinct) (hkeys : fs.KeysDiffer key) (hdir : fs.isDir = true) :
    let all := (prep (o.afterwards.nav s.active.sub) fs).list pre
    let p := s.active.currentPath
    let rep := walkResume P (.relic r) settings files disk x
    (∀ k ∈ all, k.2 = true) ∧
    (p ∈ all.map Prod.fst → p ≠ s.active.tree →
      rep.verdict = .done none ∧ rep.complete = true ∧ ((rep.calls.filter (fun k => k.2)).map Prod.fst).Nodup ∧
      (ByteOrdered (o.afterwards.nav s.active.sub) pre fs p → rep.calls.filter (fun k => k.2) = all.dropWhile (fun k => k.1 != p)) ∧
      (∀ k ∈ rep.calls, k.2 = false → k.1.dropLast <+: p ∧ p ≤ k.1)) := by
  have hund : s.active.sub ≠ .undefined := by rcases hsub with h | h <;> simp [h]
  generalize hc : o.afterwards.nav s.active.sub = c at *
  intro all p rep
  obtain ⟨n1, n2, n3, n4⟩ := plain_nav hp s.active.sub
  rw [hc] at n1 n2 n3 n4
  have hperm := n3.permutes
  have hsel := defaultRead_selects c n2
  have hcs : c.sub = .directories ∨ c.sub = .directoriesWithFiles := by rw [n4]; exact hsub
  have hcf : c.sub ≠ .files := by rcases hcs with h | h <;> simp [h]
  have hdirs : ∀ k ∈ (prep c fs).list pre, k.2 = true := listed_dirs c hperm n2 hcs fs hdir pre
  refine ⟨hdirs, ?_⟩
  intro hpath hroot
  simp only [all] at hpath ⊢
  obtain ⟨k, hk, hkp⟩ := List.mem_map.1 hpath
  have hd := prep_distinct c hperm hsel fs hdistinct
  obtain ⟨bs, v', h1, h2, -⟩ := mem_list_down _ hd pre k hk
  have hn : (prep c fs).name = fs.name := (prep_entry c fs).1
  rw [hkp, hn] at h1
  obtain ⟨as, a, rfl⟩ : ∃ as a, bs = as ++ [a] := by
    rcases List.eq_nil_or_concat bs with rfl | ⟨as, a, rfl⟩
    · exact absurd (h1.trans htree.symm) hroot
    · exact ⟨as, a, List.concat_eq_append⟩
  obtain ⟨v, hv, hkid⟩ := down_snoc as a _ _ h2
  have hplat : resumePlatform P r settings (files r.from) = .ok (o, s.active) := by
    rw [platform_loaded hl ho]
    simp only [hsys, ne_eq, not_true_eq_false, if_false]
  have hb := plain_built (P := P) hp s.active.sub (some .spawn) hund
  rw [hc] at hb
  generalize hhb : ({ inclusiveWake := o.hibernate.inclusiveWake, inclusiveSleep := o.hibernate.inclusiveSleep } : HiberOpts) = hb0 at hb
  have hw : hb0.wakeAt = none := by rw [← hhb]
  have hsl : hb0.sleepAt = none := by rw [← hhb]
  have hord : (plainSetup c (some .spawn) hb0).Ordinary := Or.inr rfl
  have hacc := plainNil_accepting hw hsl hord (o.afterwards.client h) s.active.metrics s.active.tree s.active.currentPath hnil hp.skip
  have hs0 := plain_start hord (o.afterwards.client h) x s.active.metrics s.active.depth s.active.tree
  have H := spawnableD_of key c (statOf c o.afterwards disk) disk pre fs n1 n2 n3 hcs hdistinct hkeys hdisk
    (fun p g hg => plain_stat hp c disk p g (hdisk p g hg))
  obtain ⟨s', g1, g2, g3, g4⟩ := crownD_from H hcf hacc o.afterwards.fault as a v v' hv hkid _ hs0
  rw [hn] at g1 g3 g4
  have hrun : resumeRun (plainSetup c (some .spawn) hb0) o.afterwards (o.afterwards.client h) disk .spawn s.active
      (((plainSetup c (some .spawn) hb0).world x s.active.metrics).publish (o.afterwards.client h) (.begin s.active.tree)) =
      (.done none, true, s') := by
    have e1 : pre ++ [fs.name] = s.active.tree := by rw [htree]
    rw [e1, ← h1] at g1
    exact g1
  have hempty : ∀ w : World κ, shown (⟨s.active.depth, w, []⟩ : St (World κ)).log = [] := fun _ => rfl
  rw [hempty] at g3 g4
  have hrep : rep.verdict = .done none ∧ rep.complete = true ∧ rep.calls = shown s'.log := by
    simp only [rep, walkResume, hplat, hst, hb, Built.resume, if_true, hh, Option.getD_some]
    simp only [hrun]
    refine ⟨trivial, trivial, ?_⟩
    unfold Report.calls
    simp only [publish_hits]
    exact calls_shown (plain_called hw hsl g2.1)
  have hdv : v.Distinct := (H.fine _ _ (down_at _ _ pre v hv)).distinct
  have hR : dirsOf (Tree.listL (pre ++ fs.name :: as) (v.kids.filter (fun k => decide (a ≤ k.name))) ++ behind greater as pre (prep c fs)) =
      Tree.listL (pre ++ fs.name :: as) (v.kids.filter (fun k => decide (a ≤ k.name))) ++ behind greater as pre (prep c fs) := by
    rw [List.filter_eq_self]
    intro k hk
    have := (mem_spawned as a (prep c fs) pre v hd hv k).1 (by rw [hn]; exact hk)
    exact hdirs k this.1
  have hcalls : rep.calls.filter (fun k => k.2) =
      Tree.listL (pre ++ fs.name :: as) (v.kids.filter (fun k => decide (a ≤ k.name))) ++ behind greater as pre (prep c fs) := by
    rw [hrep.2.2]
    rw [hR] at g3
    simpa [dirsOf] using g3
  refine ⟨hrep.1, hrep.2.1, ?_, ?_, ?_⟩
  · rw [hcalls]
    have := spawned_nodup hd pre as a v v' h2 hv hkid hdv
    rw [hn] at this
    exact this
  · intro hbo
    rw [hcalls]
    have hb := byteOrdered_iff c hperm hsel (as ++ [a]) pre fs v' hdistinct h2
    have hio := hb.1 (by rw [← h1]; exact hbo)
    obtain ⟨ho1, ho2⟩ := inOrder_snoc as a _ hio
    obtain ⟨l, rr, hl', hne, hnm, hlat⟩ := split_kid hkid
    obtain ⟨hl1, hr1⟩ := ho2 v hv l v' rr hl' hnm
    have hrem := remaining_eq _ (prep c fs) pre v' h2 hd
    rw [hn] at hrem
    rw [show p = _ from h1, hrem, behind_snoc later as a pre _ v hv, hlat, behind_inOrder as _ pre v hv ho1, path_dropLast, hl',
      (greater_later hnm hl1 hr1).2, Tree.listL, List.append_assoc, hn]
  · intro k hk hf
    rw [hrep.2.2] at hk
    rcases g4 k hk hf with hk | hk
    · simp at hk
    · rw [show p = _ from h1]; exact hk

/-- **C20** (partial: `C20_false_in_general`) The two subscriptions for directories. `all` is what the first session delivers, all of it
directories. A session interrupted on the way is resumed by spawning from the saved path `p`, a directory of `all` other than the tree,
on an unchanged file system. The resume ends without error and says it is complete. If along `p` the directories of every directory
are visited in the order of the bytes of their names, the directories it delivers are exactly those of `all` from `p` on, in order, each
once. What else it delivers, which it should not, are files beside the way: they lie in `p`'s parent or a directory further up and
come at or after `p`. -/
theorem C20_spawn_directories_partial (P : Platform κ) (key : String → String) (u : Using κ) (settings₀ settings : List (Option (Setting κ)))
    (disk : Disk) (x₀ x : κ) (o₀ o : Options κ) (h₀ h : κ → Parcel → κ × Reply) (r : Relic κ) (files : String → Except Err Json)
    (o₁ : Options κ) (s : Saved) (pre : Path) (fs : FS)
    -- the first session
    (hu : u.o = none) (hsub : u.sub = .directories ∨ u.sub = .directoriesWithFiles) (ho₀ : getOptions P settings₀ = (o₀, none))
    (hp₀ : o₀.Plain key) (hh₀ : u.handler = some h₀) (hnil₀ : Handler.Nil h₀) (htree : u.tree = pre ++ [fs.name])
    -- the second
    (hl : unmarshal P (files r.from) = .ok (o₁, s)) (ho : bindOptions o₁ settings = (o, none)) (hp : o.Plain key)
    (hsys : r.systems s.active.tree = some (s.traverseRelative, s.resumeRelative)) (hst : r.strategy = .spawn)
    (hh : r.handler = some h) (hnil : Handler.Nil h) (hsame : o.afterwards.nav u.sub = o₀.afterwards.nav u.sub)
    (hstree : s.active.tree = u.tree) (hssub : s.active.sub = u.sub)
    -- the file system
    (hdisk : ∀ p g, FS.At pre fs p g → disk p = .ok g) (hdistinct : fs.Distinct) (hkeys : fs.KeysDiffer key) (hdir : fs.isDir = true) :
    let all := (walkPrime P (.using u) settings₀ disk x₀).calls
    let p := s.active.currentPath
    let rep := walkResume P (.relic r) settings files disk x
    (∀ k ∈ all, k.2 = true) ∧
    (p ∈ all.map Prod.fst → p ≠ u.tree →
      rep.verdict = .done none ∧ rep.complete = true ∧ ((rep.calls.filter (fun k => k.2)).map Prod.fst).Nodup ∧
      (ByteOrdered (o.afterwards.nav u.sub) pre fs p → rep.calls.filter (fun k => k.2) = all.dropWhile (fun k => k.1 != p)) ∧
      (∀ k ∈ rep.calls, k.2 = false → k.1.dropLast <+: p ∧ p ≤ k.1)) := by
  have hd0 : disk u.tree = .ok fs := by rw [htree]; exact hdisk _ _ (.here pre fs)
  have hund : u.sub ≠ .undefined := by rcases hsub with h | h <;> simp [h]
  obtain ⟨-, hall⟩ := plain_primary (x := x₀) hu ho₀ hp₀ hund hh₀ hnil₀ htree hd0 hdistinct
  intro all p rep
  have hshow : ∀ l : List (Path × Bool), l.filter (shows (o₀.afterwards.nav u.sub)) = l := by
    intro l; rw [List.filter_eq_self]; intro a _; rcases hsub with h | h <;> simp [shows, Options.nav, h]
  rw [hshow, ← hsame] at hall
  have := spawnD_core (x := x) hl ho hp hsys hst hh hnil (hstree.trans htree) (by rw [hssub]; exact hsub) hdisk hdistinct hkeys hdir
  rw [hssub, hstree] at this
  rw [show all = _ from hall]
  exact this

/-- Not vacuous: a Directories session on the demo tree interrupted in /r/a/b; the files /r/a/x, /r/f and /r/g are delivered with what
remained of the directories. -/
example (sub : Subscription) (hs : sub = .directories ∨ sub = .directoriesWithFiles) :
    let P := sortPlatform
    let u := toyUsing sub
    let s := savedAt ["r"] ["r", "a", "b"] sub
    let r := toyRelic .spawn
    let files := savedFile (defaultOptions P) s
    ∃ o₀ o₁ o, getOptions P [] = (o₀, none) ∧ o₀.Plain P.engine.lower ∧ unmarshal P (files r.from) = .ok (o₁, s) ∧
      bindOptions o₁ [] = (o, none) ∧ o.Plain P.engine.lower ∧
      r.systems s.active.tree = some (s.traverseRelative, s.resumeRelative) ∧ u.tree = [] ++ [Demo.fs.name] ∧
      o.afterwards.nav u.sub = o₀.afterwards.nav u.sub ∧
      (∀ p g, FS.At [] Demo.fs p g → diskOf [] Demo.fs p = .ok g) ∧ Demo.fs.KeysDiffer P.engine.lower ∧
      (walkPrime P (.using u) [] (diskOf [] Demo.fs) 0).calls.map Prod.fst = [["r"], ["r", "a"], ["r", "a", "b"], ["r", "c"]] ∧
      (walkResume P (.relic r) [] files (diskOf [] Demo.fs) 0).calls =
        [(["r", "a", "b"], true), (["r", "a", "x"], false), (["r", "c"], true), (["r", "f"], false), (["r", "g"], false)] := by
  intro P u s r files
  obtain ⟨doc, h1, h2⟩ := roundTrip P (defaultOptions P) s
  have hf : files r.from = .ok doc := by simp only [files, savedFile, h1]
  refine ⟨defaultOptions P, fromJSON P (toJSON (defaultOptions P)), fromJSON P (toJSON (defaultOptions P)), rfl,
    plain_default P insertSort_sorts _ rfl, by rw [hf]; exact h2, rfl, ?_, rfl, rfl, rfl, diskOf_holds Demo.distinct, ?_, ?_, ?_⟩
  · exact ⟨rfl, rfl, rfl, rfl, rfl, rfl, rfl, rfl, fun _ => rfl, fun _ => rfl, insertSort_sorts _, fun _ _ _ => rfl⟩
  · refine ⟨fun b => ?_, ⟨fun b => ?_, trivial, ⟨fun b => ?_, trivial, trivial, trivial⟩, trivial⟩, trivial, ⟨fun b => ?_, trivial, trivial⟩,
      trivial, trivial, trivial⟩ <;> cases b <;> decide +kernel
  all_goals rcases hs with rfl | rfl <;> decide +kernel

end Traverse
