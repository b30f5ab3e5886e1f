import Verif.Proofs.Rows
import Verif.Props.Resumed
/-
Resumed sessions, either strategy, whatever is configured and whatever the handlers answer: the order of the nodes (C02), their scope
(C24, C58) and their entry errors (C54).
-/
namespace Traverse
variable {κ : Type}

theorem FS.At.trans {pre : Path} {f : FS} {p : Path} {g : FS} (h : FS.At pre f p g) : ∀ {par q k}, p = par ++ [g.name] → FS.At par g q k →
    FS.At pre f q k := by
  induction h with
  | here pre f =>
    intro par q k hp hk
    have : pre = par := by simpa using hp
    exact this ▸ hk
  | inside hk _ ih => intro par q k hp h; exact .inside hk (ih hp h)

theorem FS.At.last {pre f p g} (h : FS.At pre f p g) : p.getLast? = some g.name := by
  induction h with
  | here => simp
  | inside _ _ ih => exact ih

/-- Whatever is found on the disk is a part of the file system `fs`, and the status hook is the default one. -/
structure Within (disk : Disk) (o : Options κ) (pre : Path) (fs : FS) : Prop where
  part : ∀ p g, disk p = .ok g → FS.At pre fs p g
  status : ∀ r, o.hooks.queryStatus.invoke r = r

theorem Within.honest {disk : Disk} {o : Options κ} {pre fs} (h : Within disk o pre fs) : Honest disk o :=
  ⟨fun p f hf => (h.part p f hf).last, h.status⟩

section
variable {P : Platform κ} {r : Relic κ} {settings : List (Option (Setting κ))} {files : String → Except Err Json} {disk : Disk}
  {S : Setup} {o : Options κ} {h : κ → Parcel → κ × Reply} {a : Active} {pre : Path} {fs : FS}

/-- Every delivered node describes the entry of the file system at its path. -/
theorem resumed_at (hr : Resumed P r settings files S o h a) (hin : Within disk o pre fs) (hsort : SortPermutes (o.nav a.sub))
    (hread : ReadSelects (o.nav a.sub)) (x : κ) (n : Node) (hn : n ∈ (walkResume P (.relic r) settings files disk x).nodes) :
    ∃ g ps, FS.At pre fs n.path g ∧ n = mkNode (o.nav a.sub) ps n.path (prep (o.nav a.sub) g) (n.depth + 1) ∧ (n.parent = none ↔ ps = []) := by
  obtain ⟨rp, hm⟩ := resumed_nodes hr x n hn
  rw [hr.setup.2.symm] at hsort hread ⊢
  have key : ∀ par d t path it, statOf S.nav o disk path = .found t → path = par ++ [t.name] → it ∈ items S.nav [] par d t → it.node = n →
      ∃ g ps, FS.At pre fs n.path g ∧ n = mkNode S.nav ps n.path (prep S.nav g) (n.depth + 1) ∧ (n.parent = none ↔ ps = []) := by
    intro par d t path it hst hpath hit hn
    subst hn
    obtain ⟨f, h1, rfl, -⟩ := honest_found hin.honest hst
    obtain ⟨u, ps, g1, g2, -, -, -⟩ := items_at S.nav _ [] par d it hit
    obtain ⟨g, hg, rfl⟩ := g1.prep hsort hread f rfl
    rw [prep_name] at hpath
    refine ⟨g, ps, (hin.part path f h1).trans hpath hg, g2, ?_⟩
    rw [g2]
    cases ps <;> simp [mkNode, Node.parent]
  by_cases hst : r.strategy = .spawn
  · rw [hst] at hm
    obtain ⟨parent, name, t, it, hsp, h1, h2, h3⟩ := spawn_grown _ _ n rp hm
    obtain ⟨f, -, -, h4⟩ := honest_found hin.honest h1
    have : name = t.name := by simpa using h4
    exact key parent _ t _ it h1 (by rw [this]) h2 h3
  · obtain ⟨t, it, h1, h2, h3⟩ := fast_whole _ _ _ hst n rp hm
    obtain ⟨f, -, -, h4⟩ := honest_found hin.honest h1
    have hne : a.tree ≠ [] := by intro e; simp [e] at h4
    have htree : a.tree.dropLast ++ [t.name] = a.tree := by
      have := List.dropLast_concat_getLast hne
      rw [List.getLast?_eq_some_getLast hne] at h4
      simpa [← Option.some.inj h4] using this
    exact key _ _ t _ it h1 htree.symm h2 h3

/-- What the nodes of a spawn resume are parts of: enumerations from names, in order, in directories on the way. -/
theorem resumed_rows (hr : Resumed P r settings files S o h a) (hin : Within disk o pre fs) (hsort : SortPermutes S.nav)
    (hread : ReadSelects S.nav) (hdistinct : fs.Distinct) (hst : r.strategy = .spawn) (x : κ) (R : Tree → Tree → Prop)
    (hR : ∀ l : List Tree, (S.nav.sort l).Pairwise R) :
    ∃ rows : List Row, (walkResume P (.relic r) settings files disk x).nodes.Sublist (rows.flatMap Row.nodes) ∧
      (∀ w ∈ rows, RowFits S.nav a.tree a.currentPath w ∧ (w.nodes = [] ∨ ∃ f, disk (w.parent ++ [w.name]) = .ok f ∧ f.name = w.name ∧
        w.nodes.Sublist ((items S.nav [] w.parent a.depth (prep S.nav f)).map (·.node)))) ∧
      rows.Pairwise (Row.Later (fun p m n => m ≠ n ∧ ∃ k ∈ (disk.list p).1, ∃ k' ∈ (disk.list p).1, k.name = m ∧ k'.name = n ∧
        (k.isDir = k'.isDir → R (prep S.nav k) (prep S.nav k')) ∧ (k.isDir ≠ k'.isDir → k.isDir = !S.nav.filesFirst))) := by
  have hin' := invoked_of_hits (resumed_hits (r := r) (S := S) (o := o) (h := h) (a := a) (disk := disk) x)
  have hL : (walkResume P (.relic r) settings files disk x).nodes.Sublist
      (invoked (resumeRun S o (o.client h) disk r.strategy a (startWorld S (o.client h) r.strategy a x)).2.2.log) := by
    obtain ⟨-, f2, -, -⟩ := resumed_facts (disk := disk) hr x
    simp only [Report.nodes]
    rw [f2]
    exact hin'
  rw [hst] at hL
  obtain ⟨v, rows, h1, h2, h3, h4⟩ := crown_rows (c := S.nav) (env := S.env (o.client h) a.tree a.currentPath) (fault := o.fault)
    (stat := statOf S.nav o disk) (disk := disk) (tree := a.tree) (d := a.depth)
    (Q := fun w => Orderly w.nodes ∧ (∀ n ∈ w.nodes, w.parent ++ [w.name] <+: n.path) ∧
      (w.nodes = [] ∨ ∃ f, disk (w.parent ++ [w.name]) = .ok f ∧ f.name = w.name ∧
        w.nodes.Sublist ((items S.nav [] w.parent a.depth (prep S.nav f)).map (·.node)))) a.currentPath hsort
    (fun parent anchor incl names hf => following_pairwise hsort hread (by
      simp only [Disk.list]
      cases hd : disk parent with
      | error e => simp
      | ok g =>
        have hg := (hin.part _ _ hd).distinct hdistinct
        cases g with
        | file => simp
        | dir => exact hg.1) hf R hR)
    (fun parent name hsp s hs => by
      obtain ⟨v, h1, h2, h3⟩ := top_leg S.nav (S.env (o.client h) a.tree a.currentPath) o.fault parent (parent ++ [name])
        (statOf S.nav o disk (parent ++ [name])) s
      refine ⟨v, h1, h2.trans hs, ?_⟩
      rcases h3 with rfl | ⟨t, ht, h3⟩
      · exact ⟨⟨by simp [invoked, calls], fun p a y b hl => by simp [invoked, calls] at hl⟩, by simp [invoked, calls],
          Or.inl (by simp [invoked, calls])⟩
      · obtain ⟨f, g1, rfl, g3⟩ := honest_found hin.honest ht
        have hname : name = (prep S.nav f).name := by simpa using g3
        have hdist := prep_distinct S.nav hsort hread f ((hin.part _ _ g1).distinct hdistinct)
        rw [hs] at h3
        refine ⟨(items_orderly S.nav _ hdist parent a.depth).sublist h3.list, fun n hn => ?_, Or.inr ⟨f, g1, by rw [hname, prep_name], h3.list⟩⟩
        obtain ⟨it, hit, rfl⟩ := List.mem_map.1 (h3.list.subset hn)
        rw [hname]
        exact (items_path S.nav _ [] parent a.depth it hit).1)
    a.currentPath.reverse (by simp) (by simp) true (fun _ => by simp) ⟨a.depth, startWorld S (o.client h) .spawn a x, []⟩ rfl
  have hlog : invoked (resumeRun S o (o.client h) disk .spawn a (startWorld S (o.client h) .spawn a x)).2.2.log = rows.flatMap Row.nodes := by
    simp only [resumeRun]
    rw [h1, List.nil_append, h2]
  rw [hlog] at hL
  exact ⟨rows, hL, fun w hw => ⟨⟨(h3 w hw).1.1, (h3 w hw).1.2.1, (h3 w hw).2.1⟩, (h3 w hw).1.2.2⟩, h4⟩

/-- The nodes of a fastward resume are part of the enumeration of the tree. -/
theorem resumed_fast (hr : Resumed P r settings files S o h a) (hin : Within disk o pre fs) (hst : r.strategy ≠ .spawn) (x : κ) :
    (walkResume P (.relic r) settings files disk x).nodes = [] ∨ ∃ f, disk a.tree = .ok f ∧ a.tree = a.tree.dropLast ++ [f.name] ∧
      (walkResume P (.relic r) settings files disk x).nodes.Sublist ((items S.nav [] a.tree.dropLast 0 (prep S.nav f)).map (·.node)) := by
  have hin' := invoked_of_hits (resumed_hits (r := r) (S := S) (o := o) (h := h) (a := a) (disk := disk) x)
  have hL : (walkResume P (.relic r) settings files disk x).nodes.Sublist
      (invoked (resumeRun S o (o.client h) disk r.strategy a (startWorld S (o.client h) r.strategy a x)).2.2.log) := by
    obtain ⟨-, f2, -, -⟩ := resumed_facts (disk := disk) hr x
    simp only [Report.nodes]
    rw [f2]
    exact hin'
  obtain ⟨v, h1, -, h3⟩ := top_leg S.nav (S.env (o.client h) a.tree a.currentPath) o.fault a.tree.dropLast a.tree
    (statOf S.nav o disk a.tree) ⟨0, startWorld S (o.client h) r.strategy a x, []⟩
  have hrun : invoked (resumeRun S o (o.client h) disk r.strategy a (startWorld S (o.client h) r.strategy a x)).2.2.log = invoked v := by
    have : resumeRun S o (o.client h) disk r.strategy a (startWorld S (o.client h) r.strategy a x) =
        ((runTop S o (o.client h) disk a.tree a.currentPath ⟨0, startWorld S (o.client h) r.strategy a x, []⟩).1, true,
          (runTop S o (o.client h) disk a.tree a.currentPath ⟨0, startWorld S (o.client h) r.strategy a x, []⟩).2) := by
      cases hs : r.strategy <;> first | exact absurd hs hst | rfl
    rw [this]
    simp only [runTop]
    rw [h1, List.nil_append]
  rw [hrun] at hL
  rcases h3 with rfl | ⟨t, ht, h3⟩
  · exact Or.inl (List.sublist_nil.1 hL)
  · obtain ⟨f, g1, rfl, g3⟩ := honest_found hin.honest ht
    have hne : a.tree ≠ [] := by intro e; simp [e] at g3
    have htree : a.tree.dropLast ++ [f.name] = a.tree := by
      have := List.dropLast_concat_getLast hne
      rw [List.getLast?_eq_some_getLast hne, prep_name] at g3
      simpa [← Option.some.inj g3] using this
    exact Or.inr ⟨f, g1, htree.symm, hL.trans h3.list⟩

end

section
variable (P : Platform κ) (r : Relic κ) (settings : List (Option (Setting κ))) (files : String → Except Err Json) (disk : Disk)
  (S : Setup) (o : Options κ) (h : κ → Parcel → κ × Reply) (a : Active) (pre : Path) (fs : FS)

/-- **C24** (resumed sessions, either strategy) Every node carries exactly the scope bits that describe its kind, its contents, and the
depth it is delivered with. For fastward that is the true depth (`C58_fastward_partial`), for spawn it can be too large
(`C58_spawn_partial`), and then the bits are those of a deeper node: `C58_wrong_scope`. -/
theorem C24_resumed (hr : Resumed P r settings files S o h a) (hin : Within disk o pre fs)
    (hread : (o.nav a.sub).read = defaultRead) (hsort : SortPermutes (o.nav a.sub)) (x : κ) (n : Node)
    (hn : n ∈ (walkResume P (.relic r) settings files disk x).nodes) :
    ∃ g, FS.At pre fs n.path g ∧ n.isDir = g.isDir ∧
      (g.isDir = false → n.scope = Scope.leaf ||| Scope.file ∧ n.isLeaf = false) ∧
      (g.isDir = true → n.isLeaf = g.subDirs.isEmpty ∧
        n.scope.has Scope.directory ∧ ¬ n.scope.has Scope.file ∧
        (n.scope.has Scope.tree ↔ n.depth = 0) ∧
        (n.scope.has Scope.top ↔ n.depth = 1) ∧
        (n.scope.has Scope.leaf ↔ g.subDirs = []) ∧
        (n.scope.has Scope.intermediate ↔ ¬ n.depth = 0 ∧ ¬ n.depth = 1 ∧ g.subDirs ≠ [])) := by
  obtain ⟨g, ps, hg, he, -⟩ := resumed_at hr hin hsort (defaultRead_selects _ hread) x n hn
  obtain ⟨g2, g3, g4⟩ := scope_bits _ hread hsort g ps n he
  refine ⟨g, hg, g2, g3, fun hd => ?_⟩
  obtain ⟨a1, a2, a3, a4, a5, a6, a7, -⟩ := g4 hd
  exact ⟨a1, a2, a3, a4, a5, a6, a7⟩

/-- **C54** (resumed sessions) A node inside a directory that is traversed carries the error of obtaining its entry information; a node
from which a navigation starts (it has no Parent) is stat'ed instead. -/
theorem C54_resumed (hr : Resumed P r settings files S o h a) (hin : Within disk o pre fs)
    (hread : (o.nav a.sub).read = defaultRead) (hsort : SortPermutes (o.nav a.sub)) (x : κ) (n : Node)
    (hn : n ∈ (walkResume P (.relic r) settings files disk x).nodes) :
    (n.parent = none → n.infoErr = none) ∧ (n.parent ≠ none → ∃ g, FS.At pre fs n.path g ∧ n.infoErr = g.infoErr) := by
  obtain ⟨g, ps, hg, he, hp⟩ := resumed_at hr hin hsort (defaultRead_selects _ hread) x n hn
  constructor
  · intro hn
    rw [he, hp.1 hn]
    simp [mkNode]
  · intro hn
    refine ⟨g, hg, ?_⟩
    rw [he]
    simp only [mkNode, prep_entry_eq]
    cases ps with
    | nil => exact absurd (hp.2 rfl) hn
    | cons => simp

/-- **C02** (resumed sessions, either strategy) The nodes are delivered in pre-order: none after something inside it, nor twice, and
what lies below a path without a break; with fastward siblings come in the visiting order of their directory. -/
theorem C02_resumed (hr : Resumed P r settings files S o h a) (hin : Within disk o pre fs) (hsort : SortPermutes (o.nav a.sub))
    (hread : ReadSelects (o.nav a.sub)) (hdistinct : fs.Distinct) (x : κ) :
    let L := (walkResume P (.relic r) settings files disk x).nodes
    L.Pairwise (fun i j => ¬ j.path <+: i.path) ∧
    (∀ p a y b, [a, y, b].Sublist L → p <+: a.path → p <+: b.path → p <+: y.path) ∧
    (r.strategy ≠ .spawn → ∀ p m n i j, [i, j].Sublist L → i.path = p ++ [m] → j.path = p ++ [n] →
      ∃ g, FS.At pre fs p g ∧ [m, n].Sublist (visitOrder (o.nav a.sub) g)) := by
  intro L
  have hnav := hr.setup.2
  rw [← hnav] at hsort hread ⊢
  by_cases hst : r.strategy = .spawn
  · obtain ⟨rows, h1, h2, h3⟩ := resumed_rows hr hin hsort hread hdistinct hst x (fun _ _ => True)
      (fun l => List.pairwise_of_forall (fun _ _ => trivial))
    have := (rows_orderly (fun _ _ _ hN => hN.1) hsort rows h3 (fun w hw => (h2 w hw).1)).sublist h1
    exact ⟨this.pairwise, this.unbroken, fun hc => absurd hst hc⟩
  · rcases resumed_fast hr hin hst x with h1 | ⟨f, g1, htree, h1⟩
    · rw [show L = [] from h1]
      exact ⟨.nil, fun p a y b h => by simp at h, fun _ p m n i j h => by simp at h⟩
    · have hpart := hin.part _ _ g1
      obtain ⟨k1, k2, k3⟩ := items_in_order S.nav a.tree.dropLast f hsort hread (hpart.distinct hdistinct) 0 L h1
      refine ⟨k1, k2, fun _ p m n i j hl hi hj => ?_⟩
      obtain ⟨g, hg, hv⟩ := k3 p m n i j hl hi hj
      exact ⟨g, hpart.trans htree hg, hv⟩

/-- **C51** (resumed sessions, either strategy) With a sort hook that sorts by `key`, entries of a directory that are of one kind are
delivered in ascending order of their keys. -/
theorem C51_resumed (key : String → String) (hr : Resumed P r settings files S o h a) (hin : Within disk o pre fs)
    (hsort : SortsBy key (o.nav a.sub).sort) (hread : ReadSelects (o.nav a.sub)) (hdistinct : fs.Distinct) (x : κ) (i j : Node) (p : Path)
    (m n : String) (hij : [i, j].Sublist (walkResume P (.relic r) settings files disk x).nodes) (hi : i.path = p ++ [m]) (hj : j.path = p ++ [n])
    (hkind : i.isDir = j.isDir) : ¬ key n < key m := by
  have hnav := hr.setup.2
  rw [← hnav] at hsort hread
  by_cases hst : r.strategy = .spawn
  · obtain ⟨rows, h1, h2, h3⟩ := resumed_rows hr hin hsort.permutes hread hdistinct hst x (fun t t' => ¬ key t'.name < key t.name)
      (fun l => (hsort l).2)
    rcases rows_siblings (fun _ _ _ hN => hN.1) hsort.permutes rows h3 (fun w hw => (h2 w hw).1) i j p m n hi hj (hij.trans h1) with
      ⟨w, hw, hs⟩ | ⟨w, hw, w', hw', e1, e2, e3, e4, hiw, hjw, -, k, hk, k', hk', n1, n2, hsame, -⟩
    · rcases (h2 w hw).2 with he | ⟨f, g1, -, g3⟩
      · rw [he] at hs; simp at hs
      · exact items_ascending key S.nav w.parent f a.depth hsort hread ((hin.part _ _ g1).distinct hdistinct) i j p m n (hs.trans g3) hi hj hkind
    · -- the kinds of the two nodes are those of the entries
      have kindOf : ∀ (w : Row) (i : Node) (k : FS) (m : String), w ∈ rows → w.parent = p → w.name = m → i ∈ w.nodes → i.path = p ++ [m] →
          k ∈ (disk.list p).1 → k.name = m → i.isDir = k.isDir := by
        intro w i k m hw e1 e2 hi hpath hk hn
        rcases (h2 w hw).2 with he | ⟨f, g1, g2, g3⟩
        · rw [he] at hi; simp at hi
        · obtain ⟨it, hit, rfl⟩ := List.mem_map.1 (g3.subset hi)
          obtain ⟨u, ps', q1, q2, -⟩ := items_at S.nav _ [] w.parent a.depth it hit
          obtain ⟨g, hg, rfl⟩ := q1.prep hsort.permutes hread f rfl
          have hfs := (hin.part _ _ g1).trans (by rw [g2]) hg
          have hkfs : FS.At pre fs (p ++ [k.name]) k := by
            simp only [Disk.list] at hk
            cases hd : disk p with
            | error e => rw [hd] at hk; simp at hk
            | ok G =>
              rw [hd] at hk
              cases G with
              | file => simp at hk
              | dir N ie re kids => exact (hin.part _ _ hd).inside_kid rfl k hk
          rw [hpath, ← hn] at hfs
          have := hfs.unique hdistinct _ hkfs
          rw [q2]
          subst this
          exact (prep_entry S.nav g).2
      have k1 := kindOf w i k m hw e1 e2 hiw hi hk n1
      have k2 := kindOf w' j k' n hw' e3 e4 hjw hj hk' n2
      have := hsame (by rw [← k1, ← k2, hkind])
      rwa [prep_name, prep_name, n1, n2] at this
  · rcases resumed_fast hr hin hst x with h1 | ⟨f, g1, htree, h1⟩
    · rw [h1] at hij; simp at hij
    · exact items_ascending key S.nav a.tree.dropLast f 0 hsort hread ((hin.part _ _ g1).distinct hdistinct) i j p m n (hij.trans h1) hi hj hkind

end

/-! ### Examples -/

theorem diskOf_part (pre : Path) (fs : FS) : ∀ p g, diskOf pre fs p = .ok g → FS.At pre fs p g := by
  have hgo : ∀ (q : List String) (pre : Path) (f g : FS), diskOf.go q f = some g → FS.At pre f (pre ++ f.name :: q) g := by
    intro q
    induction q with
    | nil => intro pre f g h; simp only [diskOf.go, Option.some.injEq] at h; subst h; exact .here pre f
    | cons a as ih =>
      intro pre f g h
      cases f with
      | file => simp [diskOf.go] at h
      | dir n ie re kids =>
        simp only [diskOf.go] at h
        cases hk : kids.find? (fun k => k.name == a) with
        | none => simp [hk] at h
        | some k =>
          rw [hk] at h
          have hn : k.name = a := by simpa using List.find?_some hk
          have := ih (pre ++ [n]) k g h
          rw [hn] at this
          have h2 := FS.At.inside (ie := ie) (re := re) (List.mem_of_find?_eq_some hk) this
          simpa [FS.name] using h2
  intro p g h
  simp only [diskOf] at h
  by_cases hp : pre ++ [fs.name] <+: p
  · rw [if_pos hp] at h
    obtain ⟨q, rfl⟩ := hp
    have hd : (pre ++ [fs.name] ++ q).drop (pre.length + 1) = q := by
      rw [show pre.length + 1 = (pre ++ [fs.name]).length by simp, List.drop_left]
    rw [hd] at h
    cases hg : diskOf.go q fs with
    | none => simp [hg] at h
    | some g' =>
      rw [hg] at h
      simp only [Except.ok.injEq] at h
      subst h
      simpa using hgo q pre fs g' hg
  · simp [if_neg hp] at h

/-- Not vacuous: what C02, C24, C51 and C54 assume is so of the demo session saved in /r/a/b, for either strategy, any subscription and any
handler. -/
example (st : Strategy) (g : Path → Reply) (sub : Subscription) (hsub : sub ≠ .undefined) :
    ∃ S o, Resumed sortPlatform (Demo.relic st g) [] (Demo.saved ["r", "a", "b"] sub) S o (Demo.byPath g) (savedAt ["r"] ["r", "a", "b"] sub).active ∧
      Within (diskOf [] Demo.fs) o [] Demo.fs ∧ (o.nav sub).read = defaultRead ∧ SortsBy sortPlatform.engine.lower (o.nav sub).sort ∧
      Demo.fs.Distinct := by
  obtain ⟨doc, h1, h2⟩ := roundTrip sortPlatform (defaultOptions sortPlatform) (savedAt ["r"] ["r", "a", "b"] sub)
  have hf : Demo.saved ["r", "a", "b"] sub (Demo.relic st g).from = .ok doc := by simp only [Demo.saved, savedFile, h1]
  have hplat : resumePlatform sortPlatform (Demo.relic st g) [] (.ok doc) =
      .ok ((bindOptions (fromJSON sortPlatform (toJSON (defaultOptions sortPlatform))) []).1, (savedAt ["r"] ["r", "a", "b"] sub).active) := by
    simp only [resumePlatform, h2, bindOptions]
    rfl
  cases sub <;> first
    | exact absurd rfl hsub
    | exact ⟨_, _, ⟨rfl, _, by rw [hf]; exact hplat, rfl⟩, ⟨diskOf_part _ _, fun _ => rfl⟩, rfl, insertSort_sorts _, Demo.distinct⟩

/-- **C58, what is false**: a spawn resume from /r/a/b delivers /r/c, which lies directly inside the tree, without the scope bit of such
directories; with fastward it has it. -/
theorem C58_wrong_scope :
    let rep (st : Strategy) := walkResume sortPlatform (.relic (Demo.relic st Demo.quiet)) [] (Demo.saved ["r", "a", "b"] .universal)
      (diskOf [] Demo.fs) 0
    let scopeOf (st : Strategy) (p : Path) := ((rep st).nodes.find? (fun n => n.path == p)).map (fun n => n.scope)
    scopeOf .fastward ["r", "c"] = some (Scope.top ||| Scope.leaf ||| Scope.directory) ∧
    scopeOf .spawn ["r", "c"] = some (Scope.leaf ||| Scope.directory) := by
  decide +kernel

/-- What C02, C51 and C54 look like: the nodes of the two resumes from /r/a/b, with and without Parent. -/
example :
    let rep (st : Strategy) := walkResume sortPlatform (.relic (Demo.relic st Demo.quiet)) [] (Demo.saved ["r", "a", "b"] .universal)
      (diskOf [] Demo.fs) 0
    (rep .spawn).nodes.map (fun n => (n.path, n.parent.isNone)) =
      [(["r", "a", "b"], true), (["r", "a", "b", "y"], false), (["r", "a", "b", "z"], false), (["r", "a", "x"], true), (["r", "c"], true),
        (["r", "c", "w"], false), (["r", "f"], true), (["r", "g"], true)] ∧
    (rep .fastward).nodes.map (fun n => (n.path, n.parent.isNone)) =
      [(["r", "a", "b"], false), (["r", "a", "b", "y"], false), (["r", "a", "b", "z"], false), (["r", "a", "x"], false), (["r", "c"], false),
        (["r", "c", "w"], false), (["r", "f"], false), (["r", "g"], false)] := by
  decide +kernel

end Traverse
