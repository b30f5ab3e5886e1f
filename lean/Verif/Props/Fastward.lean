import Verif.Proofs.Fastward
import Verif.Props.Spawn
/-
C19: what a fastward resume visits.
-/
namespace Traverse
variable {κ : Type}

theorem prep_name (c : Nav) (fs : FS) : (prep c fs).name = fs.name := (prep_entry c fs).1

/-- What C19 assumes of a saved path: it lies strictly below the tree, and its last name is not that of the tree. -/
structure Resumable (pre : Path) (name : String) (p : Path) : Prop where
  below : Above (pre ++ [name]) p
  other : p.getLast? ≠ some name

theorem Resumable.parent {pre name p} (h : Resumable pre name p) : p.dropLast ≠ [] := by
  obtain ⟨⟨q, hq⟩, hne⟩ := h.below
  subst hq
  rcases List.eq_nil_or_concat q with rfl | ⟨q, a, rfl⟩
  · simp at hne
  · intro e
    have := congrArg List.length e
    simp at this

theorem Resumable.name {pre name p} (h : Resumable pre name p) : name ≠ p.getLast?.getD "" := by
  have hne : p ≠ [] := by rintro rfl; exact h.parent rfl
  have := h.other
  rw [List.getLast?_eq_some_getLast hne] at this ⊢
  exact fun e => this (by rw [e]; rfl)

theorem dozing_run {S : Setup} (hres : S.resume = some .fastward) (C : Client κ) (tree target target' : Path) {pre : Path} {t : Tree}
    (hp : Resumable pre t.name target) {s : St (World κ)} {u : St (World (Doze κ))} (hs : StSim (fun w u => ∃ fw, Dozing S target fw w u) s u) :
    (traverse S.nav (S.env C tree target) [] pre t s).1 = (traverse S.nav (S.first.env (C.dozing target) tree target') [] pre t u).1 ∧
    StSim (fun w u => ∃ fw, Dozing S target fw w u) (traverse S.nav (S.env C tree target) [] pre t s).2
      (traverse S.nav (S.first.env (C.dozing target) tree target') [] pre t u).2 :=
  (dozing_sim hres C tree target target').traverseAt S.nav (judged_kid S.nav hp.parent) t [] pre
    (judged_root S.nav pre t hp.name) s u hs

/-- **C19** A fastward resume from the saved path `p` (strictly below the tree, and not named like the tree) behaves exactly as
a first session over the whole tree with the same options, filters, hibernation and sampling, whose client dozes until `p` is
met: same result, same navigation, same final state of the client. The handler is called for what the dozing client is shown
from `p` on, with the same children and with the same answers, and the metrics count those calls only. The life-cycle
events are those of the dozing session from the call for `p` on, Wake excepted. So nothing is called, and nothing published, if `p` does
not reach the handler. Muted are, at the end, all events in that case, and otherwise Wake. -/
theorem C19_as_if_dozing (S : Setup) (hres : S.resume = some .fastward) (C : Client κ) (x : κ) (carried : Metrics) (pre : Path)
    (fs : FS) (p : Path) (hp : Resumable pre fs.name p) :
    let r := S.session C x carried p pre fs
    let u := S.first.session (C.dozing p) { own := x } carried [] pre fs
    r.1 = u.1 ∧ r.2.log = u.2.log ∧ r.2.ext.client = u.2.ext.client.own ∧
    r.2.ext.hits.map Hit.gist = (u.2.ext.hits.map Hit.gist).dropWhile (fun g => !decide (g.1.node.path = p)) ∧
    r.2.ext.metrics = u.2.ext.metrics.less u.2.ext.client.dirs u.2.ext.client.files ∧
    r.2.ext.tape = fromCall p u.2.ext.tape ∧
    (∀ e, r.2.ext.muted e = (r.2.ext.hits.isEmpty || decide (e = .wake))) := by
  intro r u
  obtain ⟨h1, h2⟩ := dozing_run hres C (pre ++ [fs.name]) p [] (pre := pre) (t := prep S.nav fs) (by rw [prep_name]; exact hp)
    (s := St.fresh (S.world x carried)) (u := St.fresh (S.first.world { own := x } carried))
    ⟨rfl, rfl, true, dozing_start hres p x carried⟩
  obtain ⟨fw, h3⟩ := h2.ext
  exact ⟨congrArg Out.final h1, h2.log, h3.own.symm, h3.hits, h3.metrics.less.symm, h3.tape, fun e => (h3.muted e).trans (by rw [← h3.asleep]; rfl)⟩

/-- A dozing client that returns nil when awake returns nil. -/
theorem dozing_nil {C : Client κ} (h : Handler.Nil C.handler) (p) : Handler.Nil (C.dozing p).handler := by
  intro k q
  simp only [Client.dozing]
  split
  · exact h _ _
  · rfl

theorem map_dropWhile_key {α β : Type} (f : α → β) (P : β → Bool) (l : List α) :
    (l.dropWhile (fun a => P (f a))).map f = (l.map f).dropWhile P := by
  induction l with
  | nil => rfl
  | cons a as ih =>
    simp only [List.dropWhile_cons, List.map_cons]
    split
    · exact ih
    · rfl

theorem fastward_core {key} {P : Platform κ} {r : Relic κ} {settings files} {disk : Disk} {x : κ} {o o₁ : Options κ} {h} {s : Saved}
    {pre : Path} {fs : FS} (hl : unmarshal P (files r.from) = .ok (o₁, s)) (ho : bindOptions o₁ settings = (o, none)) (hp : o.Plain key)
    (hsys : r.systems s.active.tree = some (s.traverseRelative, s.resumeRelative)) (hst : r.strategy = .fastward)
    (hh : r.handler = some h) (hnil : Handler.Nil h) (hstree : s.active.tree = pre ++ [fs.name]) (hsub : s.active.sub ≠ .undefined)
    (hdisk : disk s.active.tree = .ok fs) (hdistinct : fs.Distinct)
    (hpath : Resumable pre fs.name s.active.currentPath) :
    let c := o.afterwards.nav s.active.sub
    let rep := walkResume P (.relic r) settings files disk x
    rep.verdict = .done none ∧ rep.complete = true ∧
    rep.calls = (((prep c fs).list pre).filter (shows c)).dropWhile (fun k => k.1 != s.active.currentPath) := by
  intro c₀ rep
  have hplat : resumePlatform P r settings (files r.from) = .ok (o, s.active) := by
    rw [platform_loaded hl ho]
    simp only [hsys, ne_eq, not_true_eq_false, if_false]
  have hb := plain_built (P := P) hp s.active.sub (some .fastward) hsub
  generalize hhb : ({ inclusiveWake := o.hibernate.inclusiveWake, inclusiveSleep := o.hibernate.inclusiveSleep } : HiberOpts) = hb0 at hb
  have hw : hb0.wakeAt = none := by rw [← hhb]
  have hsl : hb0.sleepAt = none := by rw [← hhb]
  obtain ⟨n1, n2, n3, n4⟩ := plain_nav hp s.active.sub
  have hperm := n3.permutes
  have hsel := defaultRead_selects _ n2
  generalize hc : o.afterwards.nav s.active.sub = c at *
  generalize hC : o.afterwards.client h = C
  have hskip : ∀ k n re, (C.skip k n re).2 = (.none, none) := by rw [← hC]; exact hp.skip
  have hnilC : Handler.Nil C.handler := by rw [← hC]; exact hnil
  have hord : (plainSetup c none hb0).Ordinary := Or.inl rfl
  have hacc := plainNil_accepting hw hsl hord (C.dozing s.active.currentPath) (fun _ => none) s.active.tree []
    (dozing_nil hnilC _) (fun k n re => hskip k.own n re)
  have hs0 := plain_start hord (C.dozing s.active.currentPath) ⟨x, false, 0, 0⟩ (fun _ => none) 0 s.active.tree
  have hfine : (prep c fs).Fine c := ⟨prep_wf c hperm hsel fs, prep_distinct c hperm hsel fs hdistinct,
    fun _ => prep_shut c hperm n2 fs⟩
  obtain ⟨g1, g2, g3, g4⟩ := traverse_accepting c _ n1 hacc pre _ hfine _ hs0
  obtain ⟨T, U, hT, hU, d1, d2⟩ : ∃ T U,
      traverse c ((plainSetup c (some .fastward) hb0).env C s.active.tree s.active.currentPath) [] pre (prep c fs)
        ⟨0, ((plainSetup c (some .fastward) hb0).world x (fun _ => none)).publish C (.begin s.active.tree), []⟩ = T ∧
      traverse c ((plainSetup c none hb0).env (C.dozing s.active.currentPath) s.active.tree []) [] pre (prep c fs)
        ⟨0, ((plainSetup c none hb0).world ⟨x, false, 0, 0⟩ (fun _ => none)).publish (C.dozing s.active.currentPath) (.begin s.active.tree), []⟩ = U ∧
      T.1 = U.1 ∧ StSim (fun w u => ∃ fw, Dozing (plainSetup c (some .fastward) hb0) s.active.currentPath fw w u) T.2 U.2 :=
    ⟨_, _, rfl, rfl, dozing_run (S := plainSetup c (some .fastward) hb0) rfl C s.active.tree s.active.currentPath [] (pre := pre)
      (t := prep c fs) (by rw [prep_name]; exact hpath)
      ⟨rfl, rfl, true, (dozing_start (S := plainSetup c (some .fastward) hb0) rfl s.active.currentPath x (fun _ => none)).publish C _⟩⟩
  rw [hU] at g1 g2 g3 g4
  have hpre : s.active.tree.dropLast = pre := by rw [hstree, List.dropLast_concat]
  have hrun : resumeRun (plainSetup c (some .fastward) hb0) o.afterwards C disk .fastward s.active
      (((plainSetup c (some .fastward) hb0).world x (fun _ => none)).publish C (.begin s.active.tree)) =
      (.done none, true, T.2) := by
    have hstat := plain_stat hp c disk s.active.tree fs hdisk
    have hTT : traverse (plainSetup c (some .fastward) hb0).nav ((plainSetup c (some .fastward) hb0).env C s.active.tree s.active.currentPath) [] pre (prep c fs)
      ⟨0, ((plainSetup c (some .fastward) hb0).world x (fun _ => none)).publish C (.begin s.active.tree), []⟩ = T := hT
    have hstat' : statOf (plainSetup c (some .fastward) hb0).nav o.afterwards disk s.active.tree = .found (prep c fs) := hstat
    simp only [resumeRun, runTop, hstat', top, hpre, hTT, d1, g1]
  obtain ⟨fw, d3⟩ := d2.ext
  have hrep : rep.verdict = .done none ∧ rep.complete = true ∧
      rep.calls = T.2.ext.hits.map (fun h => (h.parcel.node.path, h.parcel.node.isDir)) := by
    have hns : ¬ (Strategy.fastward = Strategy.spawn) := by decide
    simp only [rep, walkResume, hplat, hst, hb, Built.resume, if_neg hns, hh, Option.getD_some, hC, hrun, Report.calls,
      publish_hits, and_self]
  refine ⟨hrep.1, hrep.2.1, ?_⟩
  rw [hrep.2.2]
  have hcalls := calls_shown (plain_called hw hsl g3.1)
  have e1 : ∀ l : List Hit, l.map (fun h => (h.parcel.node.path, h.parcel.node.isDir)) =
      (l.map Hit.gist).map (fun g => (g.1.node.path, g.1.node.isDir)) := by
    intro l; rw [List.map_map]; rfl
  rw [e1] at hcalls ⊢
  rw [d3.hits]
  have := map_dropWhile_key (fun g : Parcel × Reply => (g.1.node.path, g.1.node.isDir)) (fun k => !decide (k.1 = s.active.currentPath))
    (U.2.ext.hits.map Hit.gist)
  rw [this, hcalls, g4]
  rw [show c₀ = c from hc]
  simp [shown, invoked, calls]
  congr 1
  funext k
  by_cases hk : k.1 = s.active.currentPath <;> simp [hk]

/-- **C19** A first session `u` over the tree (no filter, hibernation, sampling or depth limit; handlers that return nil) calls
the handler for `all`, in that order. A session interrupted on the way is resumed by fastward from the saved path `p` on an
unchanged file system, whatever the subscription. It ends without error, says it is complete and calls the handler for exactly
the nodes of `all` from `p` on, in the same order; in particular no node before `p`, and none twice.

The full property claims this of every saved path; not covered (and false) are the tree itself and paths whose last name is
that of the tree (`C19_same_name_panics`), and, since only directories are ever saved, the Files subscription resumes nothing
at all (`C19_files_never_wake`). -/
theorem C19_fastward_partial (P : Platform κ) (key : String → String) (u : Using κ) (settings₀ settings : List (Option (Setting κ)))
    (disk : Disk) (x₀ x : κ) (o₀ o : Options κ) (h₀ h : κ → Parcel → κ × Reply) (r : Relic κ) (files : String → Except Err Json)
    (o₁ : Options κ) (s : Saved) (pre : Path) (fs : FS)
    -- the first session
    (hu : u.o = none) (hsub : u.sub ≠ .undefined) (ho₀ : getOptions P settings₀ = (o₀, none)) (hp₀ : o₀.Plain key)
    (hh₀ : u.handler = some h₀) (hnil₀ : Handler.Nil h₀) (htree : u.tree = pre ++ [fs.name])
    -- the second
    (hl : unmarshal P (files r.from) = .ok (o₁, s)) (ho : bindOptions o₁ settings = (o, none)) (hp : o.Plain key)
    (hsys : r.systems s.active.tree = some (s.traverseRelative, s.resumeRelative)) (hst : r.strategy = .fastward)
    (hh : r.handler = some h) (hnil : Handler.Nil h) (hsame : o.afterwards.nav u.sub = o₀.afterwards.nav u.sub)
    (hstree : s.active.tree = u.tree) (hssub : s.active.sub = u.sub)
    -- the file system and the saved path
    (hdisk : disk u.tree = .ok fs) (hdistinct : fs.Distinct)
    (hpath : Resumable pre fs.name s.active.currentPath) :
    let all := (walkPrime P (.using u) settings₀ disk x₀).calls
    let rep := walkResume P (.relic r) settings files disk x
    rep.verdict = .done none ∧ rep.complete = true ∧
    rep.calls = all.dropWhile (fun k => k.1 != s.active.currentPath) := by
  obtain ⟨-, hall⟩ := plain_primary (x := x₀) hu ho₀ hp₀ hsub hh₀ hnil₀ htree hdisk hdistinct
  intro all rep
  have := fastward_core (x := x) hl ho hp hsys hst hh hnil (hstree.trans htree) (hssub ▸ hsub) (hstree ▸ hdisk) hdistinct
    hpath
  simp only [all]
  rw [hall, ← hsame, ← hssub]
  exact this

/-- Nothing is called if the saved path is not among what the first session delivers. -/
theorem dropWhile_absent {l : List (Path × Bool)} {p : Path} (h : p ∉ l.map Prod.fst) : l.dropWhile (fun k => k.1 != p) = [] := by
  apply dropWhile_nil_of
  intro k hk
  simp only [bne_iff_ne, ne_eq]
  rintro rfl
  exact h (List.mem_map_of_mem hk)

/-- **C19, what is false of Files**: a resume of a Files session whose saved path is a directory (only directories are saved,
C18) calls the handler for nothing at all, and reports success. -/
theorem C19_files_never_wake (P : Platform κ) (key : String → String) (settings : List (Option (Setting κ)))
    (disk : Disk) (x : κ) (o : Options κ) (h : κ → Parcel → κ × Reply) (r : Relic κ) (files : String → Except Err Json)
    (o₁ : Options κ) (s : Saved) (pre : Path) (fs : FS)
    (hl : unmarshal P (files r.from) = .ok (o₁, s)) (ho : bindOptions o₁ settings = (o, none)) (hp : o.Plain key)
    (hsys : r.systems s.active.tree = some (s.traverseRelative, s.resumeRelative)) (hst : r.strategy = .fastward)
    (hh : r.handler = some h) (hnil : Handler.Nil h) (hssub : s.active.sub = .files) (hstree : s.active.tree = pre ++ [fs.name])
    (hdisk : disk s.active.tree = .ok fs) (hdistinct : fs.Distinct)
    (hpath : Resumable pre fs.name s.active.currentPath) (hdir : (s.active.currentPath, true) ∈ fs.nodes pre) :
    let rep := walkResume P (.relic r) settings files disk x
    rep.verdict = .done none ∧ rep.complete = true ∧ rep.calls = [] := by
  intro rep
  obtain ⟨h1, h2, h3⟩ := fastward_core (x := x) hl ho hp hsys hst hh hnil hstree (by simp [hssub]) hdisk hdistinct hpath
  refine ⟨h1, h2, h3.trans (dropWhile_absent ?_)⟩
  obtain ⟨n1, n2, n3, n4⟩ := plain_nav hp s.active.sub
  generalize o.afterwards.nav s.active.sub = c at *
  have hperm := n3.permutes
  have hmem := (items_nodes c hperm n2 n1 (by simp [n4, hssub]) (by simp [n4, hssub]) fs [] pre 0).mem_iff.2 hdir
  rw [items_list c n1] at hmem
  have hnd := list_nodup _ (prep_distinct c hperm (defaultRead_selects _ n2) fs hdistinct) pre
  intro hin
  obtain ⟨⟨p, b⟩, hk, hpk⟩ := List.mem_map.1 hin
  rw [List.mem_filter] at hk
  simp only at hpk
  subst hpk
  have : (s.active.currentPath, b) = (s.active.currentPath, true) := nodup_map_inj hnd hk.1 hmem rfl
  have hb : b = true := congrArg Prod.snd this
  have := hk.2
  simp [shows, n4, hssub, hb] at this

/-- **C19, what is false of names**: if the last name of the saved path is that of the tree (as when the tree itself was saved,
which is what the panic of a direct child of the root leaves, C18), resuming a session that delivers the root panics, and the
handler is called for nothing. -/
theorem C19_same_name_panics (P : Platform κ) (key : String → String) (settings : List (Option (Setting κ)))
    (disk : Disk) (x : κ) (o : Options κ) (h : κ → Parcel → κ × Reply) (r : Relic κ) (files : String → Except Err Json)
    (o₁ : Options κ) (s : Saved) (pre : Path) (fs : FS)
    (hl : unmarshal P (files r.from) = .ok (o₁, s)) (ho : bindOptions o₁ settings = (o, none)) (hp : o.Plain key)
    (hsys : r.systems s.active.tree = some (s.traverseRelative, s.resumeRelative)) (hst : r.strategy = .fastward)
    (hh : r.handler = some h) (hsub : s.active.sub ≠ .undefined) (hfiles : s.active.sub = .files → fs.isDir = false)
    (hstree : s.active.tree = pre ++ [fs.name]) (hdisk : disk s.active.tree = .ok fs)
    (hname : s.active.currentPath.getLast? = some fs.name) :
    let rep := walkResume P (.relic r) settings files disk x
    rep.verdict = .panic ∧ rep.calls = [] := by
  intro rep
  have hplat : resumePlatform P r settings (files r.from) = .ok (o, s.active) := by
    rw [platform_loaded hl ho]
    simp only [hsys, ne_eq, not_true_eq_false, if_false]
  have hb := plain_built (P := P) hp s.active.sub (some .fastward) hsub
  generalize hhb : ({ inclusiveWake := o.hibernate.inclusiveWake, inclusiveSleep := o.hibernate.inclusiveSleep } : HiberOpts) = hb0 at hb
  have hact : hb0.active = false := by rw [← hhb]; rfl
  obtain ⟨n1, n2, n3, n4⟩ := plain_nav hp s.active.sub
  generalize hc : o.afterwards.nav s.active.sub = c at *
  generalize hC : o.afterwards.client h = C
  generalize hS : plainSetup c (some .fastward) hb0 = S at *
  have hres : S.resume = some .fastward := by rw [← hS]; rfl
  have hnav : S.nav = c := by rw [← hS]; rfl
  have hhib : S.hiber.active = false := by rw [← hS]; exact hact
  have hfil : S.filter.active = false := by rw [← hS]; rfl
  have hpre : s.active.tree.dropLast = pre := by rw [hstree, List.dropLast_concat]
  -- the root
  have hroot : ∀ (w : World κ) (n : Node), GuardOK S true w.guard → n.parent = none → n.name = fs.name →
      (World.invoke S C s.active.currentPath w n).2 = .panic ∧ (World.invoke S C s.active.currentPath w n).1.hits = w.hits := by
    intro w n hg hpar hn
    rw [invoke_big hg n]
    have hm : fastwardMatch s.active.currentPath n = none := by
      unfold fastwardMatch
      rw [hn, hname, hpar]
      simp
    have hF := stageF_counts S w.touched ⟨n, []⟩
    have hF2 : (S.stageF w.touched ⟨n, []⟩).2.2 = .panic ∨ (S.stageF w.touched ⟨n, []⟩).2.2 = .go true none := by
      unfold Setup.stageF
      rw [hfil]
      simp only [Bool.false_eq_true, if_false]
      split
      · unfold nannyLink
        split
        · left; rfl
        · right; rfl
      · right; rfl
    unfold Setup.big
    simp only [Setup.stageH, hhib, Bool.false_eq_true, if_false, passOn_apply, goesOn_true, Bool.not_true]
    rcases eF : S.stageF w.touched ⟨n, []⟩ with ⟨w2, p2, t2⟩
    rw [eF] at hF hF2
    simp only at hF hF2 ⊢
    rcases hF2 with rfl | rfl
    · exact ⟨rfl, hF.1.hits⟩
    · simp only [goesOn_true, Bool.not_true, Bool.false_eq_true, if_false, Setup.stageW, hres, decide_true, Bool.and_true, if_true,
        fastwardLink, hF.2, hm]
      exact ⟨rfl, hF.1.hits⟩
  have hstat : statOf S.nav o.afterwards disk s.active.tree = .found (prep c fs) := hnav ▸ plain_stat hp c disk s.active.tree fs hdisk
  -- the whole run
  have hrun : ∀ w : World κ, GuardOK S true w.guard → ∃ s', resumeRun S o.afterwards C disk .fastward s.active w = (.panic, true, s') ∧
      s'.ext.hits = w.hits := by
    intro w hg
    obtain ⟨e, re, fs', ds, kids, ht⟩ : ∃ e re fs' ds kids, prep c fs = .node e re fs' ds kids := by
      cases hq : prep c fs with
      | node e re fs' ds kids => exact ⟨e, re, fs', ds, kids, rfl⟩
    have hen : e.name = fs.name := by have := prep_name c fs; rw [ht] at this; exact this
    have hed : e.isDir = fs.isDir := by have := (prep_entry c fs).2; rw [ht] at this; exact this
    simp only [resumeRun, runTop, hstat, top, hpre, ht]
    rw [traverse, if_neg (by rw [hnav, tooDeep_zero n1]; simp)]
    simp only
    generalize hn : mkNode S.nav [] (pre ++ [e.name]) (.node e re fs' ds kids) _ = n
    have hpar : n.parent = none := by rw [← hn]; rfl
    have hnm : n.name = fs.name := by rw [← hn, ← hen]; simp [NodeInfo.name]
    have hnd : n.isDir = fs.isDir := by rw [← hn, ← hed]; rfl
    generalize hs1 : St.doDescend (S.env C s.active.tree s.active.currentPath) (pre ++ [e.name]) e.isDir ⟨0, w, []⟩ = s1
    have hg1 : GuardOK S true s1.ext.guard := by rw [← hs1]; simpa [St.doDescend, Setup.env] using hg
    have hh1 : s1.ext.hits = w.hits := by rw [← hs1]; simp [St.doDescend, Setup.env]
    obtain ⟨h1, h2⟩ := hroot s1.ext n hg1 hpar hnm
    have hI : s1.doInvoke (S.env C s.active.tree s.active.currentPath) n =
        (.panic, (s1.doInvoke (S.env C s.active.tree s.active.currentPath) n).2) := by
      apply Prod.ext
      · exact h1
      · rfl
    have hE : ∃ s2, enter S.nav (S.env C s.active.tree s.active.currentPath) n (readErrOf S.nav (.node e re fs' ds kids)) s1 = (.done .panic, s2) ∧
        s2.ext.hits = w.hits := by
      refine ⟨(s1.doInvoke (S.env C s.active.tree s.active.currentPath) n).2, ?_, h2.trans hh1⟩
      unfold enter
      rw [hI, hnav]
      cases hcs : c.sub with
      | files =>
        have : n.isDir = false := by rw [hnd]; exact hfiles (n4 ▸ hcs)
        simp [this]
      | _ => rfl
    obtain ⟨s2, hE, hs2⟩ := hE
    rw [hE]
    refine ⟨_, rfl, ?_⟩
    show (St.doAscend _ _ _ s2).ext.hits = _
    simp [St.doAscend, Setup.env, hs2]
  have hns : ¬ (Strategy.fastward = Strategy.spawn) := by decide
  obtain ⟨s', hr, hh'⟩ := hrun ((S.world x (fun _ => none)).publish C (.begin s.active.tree)) (by simpa [Setup.world] using guard_ok S)
  simp only [rep, walkResume, hplat, hst, hb, Built.resume, if_neg hns, hh, Option.getD_some, hC, hr, Report.calls, hh']
  simp [Setup.world]


/-- Not vacuous: everything assumed by C19 is so of a session on the demo tree stopped in /r/a/b. -/
example :
    let P := sortPlatform
    let u := toyUsing .universal
    let s := savedAt ["r"] ["r", "a", "b"] .universal
    let r := toyRelic .fastward
    let files := savedFile (defaultOptions P) s
    ∃ o₀ o₁ o, getOptions P [] = (o₀, none) ∧ o₀.Plain P.engine.lower ∧ unmarshal P (files r.from) = .ok (o₁, s) ∧
      bindOptions o₁ [] = (o, none) ∧ o.Plain P.engine.lower ∧
      r.systems s.active.tree = some (s.traverseRelative, s.resumeRelative) ∧ u.tree = [] ++ [Demo.fs.name] ∧
      o.afterwards.nav .universal = o₀.afterwards.nav .universal ∧ diskOf [] Demo.fs u.tree = .ok Demo.fs ∧
      Resumable [] Demo.fs.name s.active.currentPath ∧ (s.active.currentPath, true) ∈ Demo.fs.nodes [] ∧
      (walkResume P (.relic r) [] files (diskOf [] Demo.fs) 0).calls.map Prod.fst =
        [["r", "a", "b"], ["r", "a", "b", "y"], ["r", "a", "b", "z"], ["r", "a", "x"], ["r", "c"], ["r", "c", "w"],
          ["r", "f"], ["r", "g"]] := by
  intro P u s r files
  obtain ⟨doc, h1, h2⟩ := roundTrip P (defaultOptions P) s
  have hf : files r.from = .ok doc := by simp only [files, savedFile, h1]
  refine ⟨defaultOptions P, fromJSON P (toJSON (defaultOptions P)), fromJSON P (toJSON (defaultOptions P)), rfl,
    plain_default P insertSort_sorts _ rfl, by rw [hf]; exact h2, rfl, ?_, rfl, rfl, rfl, ?_, ⟨by decide +kernel, by decide +kernel⟩, ?_, ?_⟩
  · exact ⟨rfl, rfl, rfl, rfl, rfl, rfl, rfl, rfl, fun _ => rfl, fun _ => rfl, insertSort_sorts _, fun _ _ _ => rfl⟩
  · exact diskOf_holds Demo.distinct _ _ (.here [] Demo.fs)
  all_goals decide +kernel

/-- The demo tree with a directory named like the root. -/
def Demo.fsR : FS := .dir "r" none none [.dir "a" none none [.dir "r" none none [.file "x" none none]]]

/-- Nor are its exceptions: the same session for Files delivers nothing; the tree itself saved, or a directory /r/a/r, panics. -/
example :
    let P := sortPlatform
    let go (sub : Subscription) (fs : FS) (p : Path) :=
      walkResume P (.relic (toyRelic .fastward)) [] (savedFile (defaultOptions P) (savedAt ["r"] p sub)) (diskOf [] fs) 0
    (go .files Demo.fs ["r", "a", "b"]).calls = [] ∧ (go .files Demo.fs ["r", "a", "b"]).verdict = .done none ∧
    (go .universal Demo.fs ["r"]).verdict = .panic ∧ (go .universal Demo.fsR ["r", "a", "r"]).verdict = .panic ∧
    (go .directories Demo.fs ["r", "c"]).calls = [(["r", "c"], true)] ∧
    (["r", "a", "r"] : Path).getLast? = some Demo.fsR.name := by
  decide +kernel

end Traverse
