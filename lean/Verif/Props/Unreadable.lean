import Verif.Props.Skipping
import Verif.Props.Api3
/-
C15 in sessions of any configuration, and in resumed sessions: unreadable directories.
-/
namespace Traverse
variable {κ σ : Type}

/-- The root that is found, blurred. -/
def RootStat.blurred (b : Blur) : RootStat → RootStat
  | .error e => .error e
  | .found t => .found (b.tree t)

theorem top_blur {b : Blur} {env : Env σ} (h : b.Blind env) (c : Nav) (hask : b.read = true → DefaultSkip env) (fault) (pre p : Path) (r : RootStat)
    (hbad : ∀ t, r = .found t → b.read = true → Blur.EmptyBad t) (s : St σ) :
    top c env fault pre p (r.blurred b) (b.st s) = ((top c env fault pre p r s).1, b.st (top c env fault pre p r s).2) := by
  cases r with
  | error e => rfl
  | found t =>
    have := Blur.traverse_blur h c hask t (hbad t rfl) [] pre s
    simp only [List.map_nil] at this
    simp only [top, RootStat.blurred, this]

theorem goLegs_blur {b : Blur} {env : Env σ} (h : b.Blind env) (c : Nav) (hask : b.read = true → DefaultSkip env) (fault) (stat : Path → RootStat)
    (hbad : ∀ p t, stat p = .found t → b.read = true → Blur.EmptyBad t) (legs : List (Path × String)) : ∀ s : St σ,
    goLegs c env fault (fun p => (stat p).blurred b) legs (b.st s) =
      ((goLegs c env fault stat legs s).1, b.st (goLegs c env fault stat legs s).2) := by
  induction legs with
  | nil => intro s; rfl
  | cons l ls ih =>
    intro s
    simp only [goLegs]
    rw [top_blur h c hask fault _ _ _ (hbad _)]
    rcases top c env fault l.1 (l.1 ++ [l.2]) (stat (l.1 ++ [l.2])) s with ⟨(_ | e) | _, s1⟩
    · exact ih s1
    · rfl
    · rfl

theorem following_emptied (c : Nav) (hsort : SortByEntries c) (hread : c.read = defaultRead) (disk disk' : Disk) (parent : Path) (fs : FS)
    (hd : disk parent = .ok fs) (hre : fs.readErr = none) (hd' : disk' parent = .ok fs.emptied) (anchor incl) :
    following c disk parent anchor incl = following c disk' parent anchor incl := by
  have hs := sort_map_entries hsort readBlur.tree (fun t => by rw [Blur.tree_entry]; rfl)
  cases fs with
  | file n ie re =>
    have hre : re = none := hre
    subst hre
    rw [FS.emptied] at hd'
    simp only [following, Disk.list, hd, hd']
  | dir n ie re kids =>
    have hre : re = none := hre
    subst hre
    have hm : (kids.map FS.emptied).map (prep c) = (kids.map (prep c)).map readBlur.tree := by
      rw [List.map_map, List.map_map]; exact List.map_congr_left (fun k _ => prep_emptied c hsort hread k)
    simp only [FS.emptied, Option.isSome_none, Bool.false_eq_true, if_false, emptiedL_map] at hd'
    have hf : ∀ (q : Tree → Bool) (hq : ∀ t, q (readBlur.tree t) = q t) (l : List Tree),
        (l.map readBlur.tree).filter q = (l.filter q).map readBlur.tree := by
      intro q hq l; rw [List.filter_map]; congr 1; exact List.filter_congr (fun t _ => hq t)
    have hn : ∀ l : List Tree, (l.map readBlur.tree).map Tree.name = l.map Tree.name := by
      intro l; rw [List.map_map]; exact List.map_congr_left (fun t _ => Blur.tree_name _ t)
    simp only [following, Disk.list, hd, hd', prepList_eq, hm, hread, defaultRead]
    rw [hf (fun t => t.name != ".DS_Store") (fun t => by simp only [Blur.tree_name])]
    simp only [fromAnchor]
    rw [hf (fun t => if incl then decide (anchor ≤ t.name) else decide (anchor < t.name)) (fun t => by simp only [Blur.tree_name]),
      hf (fun t => !t.isDir) (fun t => by simp only [Blur.tree_isDir]), hf (fun t => t.isDir) (fun t => by simp only [Blur.tree_isDir]), hs, hs]
    split
    · rw [← List.map_append, hn]
    · rw [← List.map_append, hn]

theorem legsOf_emptied (c : Nav) (hsort : SortByEntries c) (hread : c.read = defaultRead) (disk disk' : Disk)
    (hd' : ∀ p fs, disk p = .ok fs → disk' p = .ok fs.emptied) (tree : Path) (rcur : List String) :
    ∀ incl, tree <+: rcur.reverse → (∀ q, tree <+: q → Above q rcur.reverse → ∃ fs, disk q = .ok fs ∧ fs.readErr = none) →
      legsOf c disk tree rcur incl = legsOf c disk' tree rcur incl := by
  induction rcur with
  | nil => intro incl _ _; rfl
  | cons child rparent ih =>
    intro incl ht hway
    simp only [legsOf]
    split
    · rfl
    · rename_i hne
      have hrev : (child :: rparent).reverse = rparent.reverse ++ [child] := by simp
      rw [hrev] at ht hway hne
      have ht' : tree <+: rparent.reverse := by
        rcases List.prefix_concat_iff.1 ht with h | h
        · exact absurd h.symm hne
        · exact h
      have hup : Above rparent.reverse (rparent.reverse ++ [child]) := ⟨List.prefix_append _ _, fun h => by simpa using congrArg List.length h⟩
      obtain ⟨fs, f1, f2⟩ := hway _ ht' hup
      rw [following_emptied c hsort hread disk disk' _ fs f1 f2 (hd' _ _ f1)]
      have := ih false ht' (fun p h1 h2 => hway p h1 ⟨h2.1.trans hup.1, fun e => by
        have := h2.1.length_le
        rw [e] at this
        simp at this
        omega⟩)
      rw [this]

theorem env_blind (S : Setup) (C : Client κ) (tree target : Path) (hskip : ∀ k n re, C.skip k n re = C.skip k n none) :
    readBlur.Blind (S.env C tree target) :=
  ⟨fun _ _ => rfl, fun w n r => by
    have : readBlur.re r = none := rfl
    rw [this]
    simp only [Setup.env, hskip _ n r]
    rfl, fun _ _ _ => rfl⟩

theorem stat_emptied (c : Nav) (hsort : SortByEntries c) (hread : c.read = defaultRead) (o : Options κ) (hst : ∀ r, o.hooks.queryStatus.invoke r = r)
    (disk disk' : Disk) (p : Path)
    (hd' : disk' p = match disk p with | .ok fs => .ok fs.emptied | .error e => .error e) :
    statOf c o disk' p = (statOf c o disk p).blurred readBlur := by
  simp only [statOf, hst, hd']
  cases disk p with
  | error e => rfl
  | ok fs => simp only [RootStat.blurred, prep_emptied c hsort hread]

theorem stat_bad (c : Nav) (hsort : SortByEntries c) (hread : c.read = defaultRead) (o : Options κ) (hst : ∀ r, o.hooks.queryStatus.invoke r = r)
    (disk : Disk) (p : Path) (t : Tree) (h : statOf c o disk p = .found t) : Blur.EmptyBad t := by
  simp only [statOf, hst] at h
  cases hd : disk p with
  | error e => rw [hd] at h; cases h
  | ok fs => rw [hd] at h; cases h; exact emptyBad_prep c hsort hread fs

/-- **C15** (any configuration) The skip handler answers SkipNone and nil and does not look at the read error, the read and the sort hook
are the default ones or the like (`SortByEntries`: what is below an entry does not matter). Whatever is configured besides (filters,
hibernation, a depth limit, listeners) and whatever the handler answers, the session is in every respect — what it returns, the handler
calls with their nodes, the events, the metrics — the session on a disk (`disk'`) on which the unreadable directories are empty. -/
theorem C15_session_any (P : Platform κ) (u : Using κ) (settings : List (Option (Setting κ))) (disk disk' : Disk) (S : Setup) (o : Options κ)
    (hb : buildPrimary P (.using u) settings = .ready S o) (hread : S.nav.read = defaultRead) (hsort : SortByEntries S.nav)
    (hst : ∀ r, o.hooks.queryStatus.invoke r = r)
    (hskip : ∀ k n re, (o.defects.skip k n re).2 = (.none, none) ∧ o.defects.skip k n re = o.defects.skip k n none)
    (hd' : disk' u.tree = match disk u.tree with | .ok fs => .ok fs.emptied | .error e => .error e) (x : κ) :
    walkPrime P (.using u) settings disk x = walkPrime P (.using u) settings disk' x := by
  simp only [walkPrime, hb, Built.navigate]
  generalize u.handler.getD (fun k _ => (k, Reply.ok none)) = h
  have key := top_blur (env_blind S (o.client h) u.tree [] (fun k n re => (hskip k n re).2)) S.nav (fun _ w n re => (hskip _ n re).1) o.fault
    u.tree.dropLast u.tree (statOf S.nav o disk u.tree) (fun t ht _ => stat_bad S.nav hsort hread o hst disk u.tree t ht)
    ⟨0, (S.world x (fun _ => none)).publish (o.client h) (.begin u.tree), []⟩
  rw [← stat_emptied S.nav hsort hread o hst disk disk' u.tree hd'] at key
  simp only [runTop]
  rw [show readBlur.st ⟨0, (S.world x (fun _ => none)).publish (o.client h) (.begin u.tree), []⟩ =
    ⟨0, (S.world x (fun _ => none)).publish (o.client h) (.begin u.tree), []⟩ from rfl] at key
  rw [key]
  generalize top S.nav (S.env (o.client h) u.tree []) o.fault u.tree.dropLast u.tree (statOf S.nav o disk u.tree)
    ⟨0, (S.world x (fun _ => none)).publish (o.client h) (.begin u.tree), []⟩ = T
  rcases T with ⟨_ | _, s⟩ <;> rfl

/-- **C15** (resumed) The same in a resumed session, whatever the strategy. For spawn, the saved path lies below the tree and the directories
above it can be read: that spawn returns the error of one that cannot is `C76_gone`. -/
theorem C15_resumed (P : Platform κ) (r : Relic κ) (settings : List (Option (Setting κ))) (files : String → Except Err Json)
    (disk disk' : Disk) (S : Setup) (o : Options κ) (h : κ → Parcel → κ × Reply) (a : Active) (hr : Resumed P r settings files S o h a)
    (hread : S.nav.read = defaultRead) (hsort : SortByEntries S.nav) (hst : ∀ r, o.hooks.queryStatus.invoke r = r)
    (hskip : ∀ k n re, (o.defects.skip k n re).2 = (.none, none) ∧ o.defects.skip k n re = o.defects.skip k n none)
    (hd' : ∀ p, disk' p = match disk p with | .ok fs => .ok fs.emptied | .error e => .error e)
    (hway : r.strategy = .spawn → a.tree <+: a.currentPath ∧
      ∀ p, a.tree <+: p → Above p a.currentPath → ∃ fs, disk p = .ok fs ∧ fs.readErr = none) (x : κ) :
    walkResume P (.relic r) settings files disk x = walkResume P (.relic r) settings files disk' x := by
  obtain ⟨o₀, h1, h2⟩ := hr.built
  simp only [walkResume, h1, h2, Built.resume]
  generalize r.handler.getD (fun k _ => (k, Reply.panic)) = h
  generalize (S.world x (if r.strategy = .spawn then a.metrics else fun _ => none)).publish (o.client h) (.begin a.tree) = w
  have hstat : ∀ p, statOf S.nav o disk' p = (statOf S.nav o disk p).blurred readBlur := fun p => stat_emptied S.nav hsort hread o hst disk disk' p (hd' p)
  have hblind := env_blind S (o.client h) a.tree a.currentPath (fun k n re => (hskip k n re).2)
  have hbad := fun p t ht (_ : readBlur.read = true) => stat_bad S.nav hsort hread o hst disk p t ht
  have key : resumeRun S o (o.client h) disk' r.strategy a w =
      ((resumeRun S o (o.client h) disk r.strategy a w).1, (resumeRun S o (o.client h) disk r.strategy a w).2.1,
        readBlur.st (resumeRun S o (o.client h) disk r.strategy a w).2.2) := by
    by_cases hsp : r.strategy = .spawn
    · obtain ⟨ht, hway⟩ := hway hsp
      simp only [resumeRun, hsp, crown_legs]
      rw [← legsOf_emptied S.nav hsort hread disk disk' (fun p fs h => by rw [hd', h]) a.tree a.currentPath.reverse true
        (by rw [List.reverse_reverse]; exact ht) (by rw [List.reverse_reverse]; exact hway)]
      have := goLegs_blur hblind S.nav (fun _ w n re => (hskip _ n re).1) o.fault (statOf S.nav o disk) hbad
        (legsOf S.nav disk a.tree a.currentPath.reverse true).1 ⟨a.depth, w, []⟩
      rw [show (fun p => (statOf S.nav o disk p).blurred readBlur) = statOf S.nav o disk' from (funext hstat).symm,
        show readBlur.st (⟨a.depth, w, []⟩ : St (World κ)) = ⟨a.depth, w, []⟩ from rfl] at this
      rw [this]
      rcases goLegs S.nav (S.env (o.client h) a.tree a.currentPath) o.fault (statOf S.nav o disk)
        (legsOf S.nav disk a.tree a.currentPath.reverse true).1 ⟨a.depth, w, []⟩ with ⟨(_ | e) | _, s⟩ <;> rfl
    · have : ∀ d, resumeRun S o (o.client h) d r.strategy a w =
          ((runTop S o (o.client h) d a.tree a.currentPath ⟨0, w, []⟩).1, true, (runTop S o (o.client h) d a.tree a.currentPath ⟨0, w, []⟩).2) := by
        intro d
        unfold resumeRun
        split
        · rename_i h0; exact absurd h0 hsp
        · rfl
      rw [this, this]
      simp only [runTop, hstat]
      have := top_blur hblind S.nav (fun _ w n re => (hskip _ n re).1) o.fault a.tree.dropLast a.tree (statOf S.nav o disk a.tree) (hbad a.tree) ⟨0, w, []⟩
      rw [show readBlur.st (⟨0, w, []⟩ : St (World κ)) = ⟨0, w, []⟩ from rfl] at this
      rw [this]
  rw [key]
  rcases resumeRun S o (o.client h) disk r.strategy a w with ⟨_ | _, c, s⟩ <;> rfl

/-- Not vacuous, C15 resumed: /r/a, in which it was saved, cannot be read; any strategy, handler and subscription; a filter and a sleep condition. -/
example (st : Strategy) (g : Path → Reply) (sub : Subscription) (hsub : sub ≠ .undefined) :
    let P := sortPlatform
    let r := Demo.relic st g
    let files := Demo.saved ["r", "a"] sub
    let a := (savedAt ["r"] ["r", "a"] sub).active
    let disk := diskOf [] Demo.fsBad
    let settings := settingsOf P [some (.filterSleep (some (.plain { type := .regex, pattern := "x" }))),
      some (.filter { node := some (.plain { type := .regex, pattern := "y", negate := true }) } none)]
    (∃ S o, Resumed P r settings files S o (Demo.byPath g) a ∧ S.nav.read = defaultRead ∧ SortByEntries S.nav ∧
      (∀ r, o.hooks.queryStatus.invoke r = r) ∧
      (∀ k n re, (o.defects.skip k n re).2 = (.none, none) ∧ o.defects.skip k n re = o.defects.skip k n none)) ∧
    a.tree <+: a.currentPath ∧ (∀ p, a.tree <+: p → Above p a.currentPath → ∃ fs, disk p = .ok fs ∧ fs.readErr = none) ∧
    disk ["r", "a"] = .ok (.dir "a" none (some (.code 13)) [.file "x" none none]) ∧
    (walkResume P (.relic (Demo.relic .spawn Demo.quiet)) [] (Demo.saved ["r", "a"] .universal) disk 0).nodes.map (fun n => n.path) =
      [["r", "a"], ["r", "c"], ["r", "c", "w"], ["r", "f"]] := by
  intro P r files a disk settings
  obtain ⟨doc, h1, h2⟩ := roundTrip P (defaultOptions P) (savedAt ["r"] ["r", "a"] sub)
  have hf : files r.from = .ok doc := by
    simp only [P] at h1
    simp only [files, Demo.saved, savedFile, h1]
  refine ⟨?_, (by decide : (["r"] : Path) <+: ["r", "a"]), ?_, rfl, by decide +kernel⟩
  · have hplat : resumePlatform P r settings (.ok doc) = .ok ((bindOptions (fromJSON P (toJSON (defaultOptions P))) settings).1, a) := by
      simp only [resumePlatform, h2, bindOptions, settings, applyAll_settings]
      rfl
    have key : ∃ S o, buildRest P a.sub (some st) (bindOptions (fromJSON P (toJSON (defaultOptions P))) settings).1.afterwards = .ready S o ∧
        S.nav.read = defaultRead ∧ SortByEntries S.nav ∧ (∀ r, o.hooks.queryStatus.invoke r = r) ∧
        (∀ k n re, (o.defects.skip k n re).2 = (.none, none) ∧ o.defects.skip k n re = o.defects.skip k n none) := by
      cases sub <;> first
        | exact absurd rfl hsub
        | exact ⟨_, _, rfl, rfl, insertSort_byEntries _, fun _ => rfl, fun _ _ _ => ⟨rfl, rfl⟩⟩
    obtain ⟨S, o, k1, k2⟩ := key
    exact ⟨S, o, ⟨rfl, _, by rw [hf]; exact hplat, k1⟩, k2⟩
  · intro p hp hup
    have hp : (["r"] : Path) <+: p := hp
    have hup : Above p ["r", "a"] := hup
    obtain ⟨rest, rfl⟩ := hp
    obtain ⟨⟨tail, ht⟩, hne⟩ := hup
    match rest with
    | [] => exact ⟨_, rfl, rfl⟩
    | [x] =>
      simp only [List.cons_append, List.nil_append, List.cons.injEq, true_and] at ht
      obtain ⟨rfl, -⟩ := ht
      exact absurd rfl hne
    | x :: y :: more => simp at ht

/-- Not vacuous, C15 of any configuration: with a filter and a wake condition. -/
example (g : Path → Reply) (sub : Subscription) (hsub : sub ≠ .undefined) :
    let P := sortPlatform
    let u : Using Nat := { toyUsing sub with handler := some (Demo.byPath g) }
    let settings := settingsOf P [some (.filterWake (some (.plain { type := .regex, pattern := "a" }))),
      some (.filter { node := some (.plain { type := .regex, pattern := "w", negate := true }) } none)]
    (∃ S o, buildPrimary P (.using u) settings = .ready S o ∧ S.nav.read = defaultRead ∧ SortByEntries S.nav ∧
      (∀ r, o.hooks.queryStatus.invoke r = r) ∧
      (∀ k n re, (o.defects.skip k n re).2 = (.none, none) ∧ o.defects.skip k n re = o.defects.skip k n none)) ∧
    diskOf [] Demo.fsBad u.tree = .ok Demo.fsBad ∧ diskOf [] Demo.fsBad.emptied u.tree = .ok Demo.fsBad.emptied := by
  intro P u settings
  refine ⟨?_, rfl, rfl⟩
  cases sub <;> first
    | exact absurd rfl hsub
    | exact ⟨_, _, rfl, rfl, insertSort_byEntries _, fun _ => rfl, fun _ _ _ => ⟨rfl, rfl⟩⟩

end Traverse
