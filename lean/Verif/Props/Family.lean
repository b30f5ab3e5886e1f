import Verif.Spec.Family
import Verif.Props.ResumedNodes
/-
C72: the Parents of the nodes.
-/
namespace Traverse
variable {κ : Type}

/-- The Parents of a node of an enumeration are the nodes of the enumeration for the directories around it. -/
theorem items_chain (c : Nav) (t : Tree) : t.WF → ∀ ps pp d, ∀ it ∈ items c ps pp d t, ∃ own, it.node.parents = own ++ ps ∧
    it.node.depth = d + own.length ∧ ∀ l q r, own = l ++ q :: r → ∃ jt ∈ items c ps pp d t, jt.node.toNodeInfo = q ∧
      jt.node.parents = r ++ ps ∧ jt.node.path <+: it.node.path ∧ jt.node.depth = d + r.length ∧ q.isDir = true := by
  induction t using Tree.ind with
  | h e re fs ds kids ih =>
    intro hwf ps pp d it hit
    have hit0 := hit
    simp only [items] at hit
    split at hit
    · simp at hit
    · rename_i hdeep
      rcases List.mem_cons.1 hit with rfl | hit
      · exact ⟨[], rfl, by simp [mkNode_depth], fun l q r h => by simp at h⟩
      · rw [itemsList_eq, List.mem_flatMap] at hit
        obtain ⟨k, hk, hit⟩ := hit
        have hkwf : k.WF := by
          simp only [Tree.WF] at hwf
          exact (Tree.wfL_iff kids).1 hwf.2 k hk
        have hdir : e.isDir = true := by
          simp only [Tree.WF] at hwf
          cases he : e.isDir
          · have := hwf.1 he
            subst this; simp at hk
          · rfl
        have hsub : ∀ jt ∈ items c ((mkNode c ps (pp ++ [e.name]) (.node e re fs ds kids) (d + 1)).toNodeInfo :: ps) (pp ++ [e.name]) (d + 1) k,
            jt ∈ items c ps pp d (.node e re fs ds kids) := by
          intro jt hjt
          simp only [items, hdeep]
          rw [if_neg (by simp), itemsList_eq]
          exact List.mem_cons_of_mem _ (List.mem_flatMap.2 ⟨k, hk, hjt⟩)
        have hroot : (⟨mkNode c ps (pp ++ [e.name]) (.node e re fs ds kids) (d + 1), readErrOf c (.node e re fs ds kids)⟩ : Item) ∈
            items c ps pp d (.node e re fs ds kids) := by
          simp only [items, hdeep]
          rw [if_neg (by simp)]
          exact List.mem_cons_self
        obtain ⟨own, h1, h2, h3⟩ := ih k hk hkwf _ _ _ it hit
        refine ⟨own ++ [(mkNode c ps (pp ++ [e.name]) (.node e re fs ds kids) (d + 1)).toNodeInfo], by rw [h1, List.append_assoc]; rfl, by rw [h2, List.length_append]; simp; omega, fun l q r hl => ?_⟩
        rcases List.eq_nil_or_concat r with rfl | ⟨r', y, rfl⟩
        · obtain ⟨-, hq⟩ := List.append_inj' hl rfl
          cases hq
          refine ⟨_, hroot, rfl, by simp [mkNode], ?_, by simp [mkNode_depth], hdir⟩
          exact (List.prefix_append _ _).trans (items_path c k _ _ _ it hit).1
        · rw [List.concat_eq_append] at hl ⊢
          have hl' : own ++ [(mkNode c ps (pp ++ [e.name]) (.node e re fs ds kids) (d + 1)).toNodeInfo] = (l ++ q :: r') ++ [y] := by
            rw [hl]; simp
          obtain ⟨ho, hy⟩ := List.append_inj' hl' rfl
          cases hy
          obtain ⟨jt, j1, j2, j3, j4, j5, j6⟩ := h3 l q r' ho
          exact ⟨jt, hsub jt j1, j2, by rw [j3]; simp, j4, by rw [j5]; simp; omega, j6⟩

/-- … so their chain leads to the first of it. -/
theorem items_lineage {c : Nav} {t : Tree} (hwf : t.WF) {pp : Path} {d : Int} {it : Item} (hit : it ∈ items c [] pp d t) :
    Lineage (pp ++ [t.name]) it.node := by
  obtain ⟨own, h1, h2, h3⟩ := items_chain c t hwf [] pp d it hit
  rw [List.append_nil] at h1
  obtain ⟨p1, p2⟩ := items_path c t [] pp d it hit
  have hl := p1.length_le
  simp at hl
  refine ⟨p1, by rw [h1]; simp; omega, fun i q hq => ?_⟩
  rw [h1] at hq
  obtain ⟨hi, hq⟩ := List.getElem?_eq_some_iff.1 hq
  obtain ⟨jt, j1, j2, j3, j4, j5, j6⟩ := h3 (own.take i) q (own.drop (i + 1)) (by
    rw [← hq, ← List.drop_eq_getElem_cons hi, List.take_append_drop])
  obtain ⟨q1, q2⟩ := items_path c t [] pp d jt j1
  have hl' := q1.length_le
  simp at hl' j5
  subst j2
  refine ⟨?_, by rw [j5, h2]; omega, j6⟩
  rw [List.prefix_iff_eq_take.1 j4]
  congr 1
  omega

/-- … and a node of it whose path is a proper prefix is one of the Parents. -/
theorem items_forebear {c : Nav} {t : Tree} (hwf : t.WF) (hdist : t.Distinct) {pp : Path} {d : Int} {it jt : Item}
    (hit : it ∈ items c [] pp d t) (hjt : jt ∈ items c [] pp d t) (hab : Above jt.node.path it.node.path) : Forebear jt.node it.node := by
  obtain ⟨own, h1, h2, h3⟩ := items_chain c t hwf [] pp d it hit
  rw [List.append_nil] at h1
  obtain ⟨p1, p2⟩ := items_path c t [] pp d it hit
  obtain ⟨q1, q2⟩ := items_path c t [] pp d jt hjt
  have hl := p1.length_le
  have hl' := q1.length_le
  have hlt : jt.node.path.length < it.node.path.length := by
    rcases Nat.lt_or_ge jt.node.path.length it.node.path.length with h | h
    · exact h
    · exact absurd (hab.1.eq_of_length_le h) hab.2
  simp at hl hl'
  let i := it.node.path.length - jt.node.path.length - 1
  have hi : i < own.length := by show it.node.path.length - jt.node.path.length - 1 < _; omega
  obtain ⟨kt, j1, j2, j3, j4, j5, j6⟩ := h3 (own.take i) own[i] (own.drop (i + 1)) (by
    rw [← List.drop_eq_getElem_cons hi, List.take_append_drop])
  obtain ⟨r1, r2⟩ := items_path c t [] pp d kt j1
  have hl2 := r1.length_le
  simp at hl2 j5 j3
  have hpath : kt.node.path = jt.node.path := by
    have hlen : kt.node.path.length = jt.node.path.length := by
      have : i = it.node.path.length - jt.node.path.length - 1 := rfl
      omega
    rw [List.prefix_iff_eq_take.1 j4, List.prefix_iff_eq_take.1 hab.1, hlen]
  have hsame : kt = jt := by
    have hpw := (items_preOrder c t hdist [] pp d).pairwise
    by_cases he : kt = jt
    · exact he
    · rcases List.mem_iff_append.1 j1 with ⟨a, b, hab'⟩
      rw [hab'] at hpw hjt
      rw [List.pairwise_append, List.pairwise_cons] at hpw
      rcases List.mem_append.1 hjt with hm | hm
      · exact absurd (hpath ▸ List.prefix_rfl) (hpw.2.2 jt hm kt List.mem_cons_self)
      · rcases List.mem_cons.1 hm with hm | hm
        · exact hm.symm
        · exact absurd (hpath ▸ List.prefix_rfl) (hpw.2.1.1 jt hm)
  subst hsame
  unfold Forebear
  rw [j2, j3, ← List.drop_eq_getElem_cons hi, h1]
  exact List.drop_suffix _ _

theorem started_items {P : Platform κ} {u : Using κ} {settings : List (Option (Setting κ))} {disk : Disk} {S : Setup} {o : Options κ}
    {h : κ → Parcel → κ × Reply} {pre : Path} {fs : FS} (hs : Started P u settings disk S o h pre fs) (x : κ) :
    (walkPrime P (.using u) settings disk x).nodes.Sublist ((items (o.nav u.sub) [] pre 0 (prep (o.nav u.sub) fs)).map (·.node)) := by
  obtain ⟨y, -, -, h3⟩ := started_walk hs x
  have hrun := (walk_run S.nav (S.env (o.client h) (pre ++ [fs.name]) []) (S.world y (fun _ => none)) pre fs).sublist
  rw [invoked_acts] at hrun
  rw [← (primary_ready hs.built).2.1]
  exact h3.trans hrun

section
variable (P : Platform κ) (u : Using κ) (settings : List (Option (Setting κ))) (disk : Disk) (S : Setup) (o : Options κ)
  (h h₀ : κ → Parcel → κ × Reply) (pre : Path) (fs : FS)

/-- **C72** Whatever is configured and whatever the handlers answer: the Parents of every delivered node are the directories around it, one
for each level up to the tree root, whose Parent is nil; and where the handler was called for one of these directories, the Parent is, in
everything a client can see, the node it was called with. -/
theorem C72_session (hs : Started P u settings disk S o h pre fs) (hsort : SortPermutes (o.nav u.sub)) (hread : ReadSelects (o.nav u.sub))
    (hdistinct : fs.Distinct) (x : κ) :
    let L := (walkPrime P (.using u) settings disk x).nodes
    ∀ m ∈ L, Lineage u.tree m ∧ ∀ q ∈ L, Above q.path m.path → Forebear q m := by
  intro L m hm
  have hsub := started_items hs x
  have hwf := prep_wf _ hsort hread fs
  have hdist := prep_distinct _ hsort hread fs hdistinct
  obtain ⟨it, hit, rfl⟩ := List.mem_map.1 (hsub.subset hm)
  refine ⟨?_, fun q hq hab => ?_⟩
  · have := items_lineage hwf hit
    rwa [prep_name, ← hs.tree] at this
  · obtain ⟨jt, hjt, rfl⟩ := List.mem_map.1 (hsub.subset hq)
    exact items_forebear hwf hdist hit hjt hab

/-- **C72** Universal and Directories without filters: each of the Parents of a node has been delivered before it, whatever the handler
answers. -/
theorem C72_delivered (hp : Primed P u settings disk o h pre fs) (hu : o.Usual) (hsub : u.sub ≠ .files) (hdistinct : fs.Distinct) (x : κ)
    (l r : List Node) (m : Node) (hL : (walkPrime P (.using u) settings disk x).nodes = l ++ m :: r) :
    ∀ q ∈ m.parents, ∃ b ∈ l, b.toNodeInfo = q ∧ Forebear b m := by
  intro q hq
  let h₁ : κ → Parcel → κ × Reply := fun k _ => (k, .ok none)
  have hpre := C08_session_prefix (h₀ := h₁) P u settings disk o h pre fs hp hu hsub hdistinct (fun _ _ => rfl) x x
  obtain ⟨y, tree, -, -, h3, -⟩ := primed_walk (hp.withHandler h₁) x
  have hsort := usual_sort hu u.sub
  have hread := defaultRead_selects _ (usual_read hu u.sub)
  obtain ⟨hacc, -⟩ := walk_accepting (o.afterwards.nav u.sub) (bareEnv (primedSetup o u.sub) (o.client h₁) tree)
    ((primedSetup o u.sub).world y (fun _ => none)) pre fs hsort hread (bare_nil _ _ (fun _ _ => rfl)) (usual_skip hu _ _) hdistinct
    (fun _ => usual_read hu _)
  rw [List.filter_eq_self.2 (by intro n _; simp [Options.nav, hsub])] at hacc
  have hall := h3.trans hacc
  have hwf := prep_wf _ hsort hread fs
  have hdist := prep_distinct _ hsort hread fs hdistinct
  obtain ⟨rest, hrest⟩ := hpre
  rw [hL] at hrest
  have hmem : m ∈ (walkPrime P (.using { u with handler := some h₁ }) settings disk x).nodes.filter
      (fun m => decide (∀ p ∈ (walkPrime P (.using u) settings disk x).refused, ¬ Above p m.path)) := by rw [← hrest]; simp
  obtain ⟨hm1, hm2⟩ := List.mem_filter.1 hmem
  have hm2 := of_decide_eq_true hm2
  rw [hall] at hm1
  obtain ⟨it, hit, rfl⟩ := List.mem_map.1 hm1
  obtain ⟨own, g1, g2, g3⟩ := items_chain _ _ hwf [] pre 0 it hit
  rw [List.append_nil] at g1
  rw [g1] at hq
  obtain ⟨l', r', hown⟩ := List.append_of_mem hq
  obtain ⟨jt, j1, j2, -, j4, j5, -⟩ := g3 l' q r' hown
  have hlen : jt.node.path ≠ it.node.path := by
    intro e
    have a1 := (items_path _ _ [] pre 0 it hit).2
    have a2 := (items_path _ _ [] pre 0 jt j1).2
    rw [e] at a2
    rw [hown] at g2
    simp at g2
    omega
  have hj : jt.node ∈ (l ++ it.node :: r) ++ rest := by
    rw [hrest, List.mem_filter, hall]
    refine ⟨List.mem_map_of_mem j1, decide_eq_true fun p hp hab => hm2 p hp ⟨hab.1.trans j4, fun e => ?_⟩⟩
    exact hab.2 (hab.1.eq_of_length_le (e ▸ j4.length_le))
  have hpw : ((l ++ it.node :: r) ++ rest).Pairwise (fun i j => ¬ j.path <+: i.path) := by
    rw [hrest, hall]
    exact List.Pairwise.filter _ (items_orderly _ _ hdist pre 0).1
  rw [List.append_assoc, List.pairwise_append] at hpw
  rw [List.append_assoc, List.mem_append, List.cons_append, List.mem_cons] at hj
  rcases hj with hj | hj | hj
  · exact ⟨jt.node, hj, j2, items_forebear hwf hdist hit j1 ⟨j4, hlen⟩⟩
  · exact absurd (congrArg (·.path) hj) hlen
  · exact absurd j4 ((List.pairwise_cons.1 hpw.2.1).1 _ hj)

end

section
variable (P : Platform κ) (r : Relic κ) (settings : List (Option (Setting κ))) (files : String → Except Err Json) (disk : Disk)
  (S : Setup) (o : Options κ) (h : κ → Parcel → κ × Reply) (a : Active) (pre : Path) (fs : FS)

/-- **C72** (fastward resumes; partial: for spawn it is false, `C72_spawn_orphans`) The same, up to the root of the tree. -/
theorem C72_fastward_partial (hr : Resumed P r settings files S o h a) (hst : r.strategy ≠ .spawn) (hin : Within disk o pre fs)
    (hsort : SortPermutes (o.nav a.sub)) (hread : ReadSelects (o.nav a.sub)) (hdistinct : fs.Distinct) (x : κ) :
    let L := (walkResume P (.relic r) settings files disk x).nodes
    ∀ m ∈ L, Lineage a.tree m ∧ ∀ q ∈ L, Above q.path m.path → Forebear q m := by
  intro L m hm
  rcases resumed_fast hr hin hst x with hnil | ⟨f, g1, g2, hsub⟩
  · have : m ∈ ([] : List Node) := hnil ▸ hm
    cases this
  rw [← hr.setup.2] at hsort hread
  have hwf := prep_wf _ hsort hread f
  have hdist := prep_distinct _ hsort hread f ((hin.part _ _ g1).distinct hdistinct)
  obtain ⟨it, hit, rfl⟩ := List.mem_map.1 (hsub.subset hm)
  refine ⟨?_, fun q hq hab => ?_⟩
  · have := items_lineage hwf hit
    rwa [prep_name, ← g2] at this
  · obtain ⟨jt, hjt, rfl⟩ := List.mem_map.1 (hsub.subset hq)
    exact items_forebear hwf hdist hit hjt hab

/-- **C72** (spawn resumes; partial) The Parents are directories around the node, without a gap, but only up to some `top`: the saved path, or
something else in a directory on the way to it. The full property has them lead to the root of the tree. -/
theorem C72_spawn_partial (hr : Resumed P r settings files S o h a) (hst : r.strategy = .spawn) (hin : Within disk o pre fs)
    (hsort : SortPermutes (o.nav a.sub)) (hread : ReadSelects (o.nav a.sub)) (x : κ) :
    ∀ m ∈ (walkResume P (.relic r) settings files disk x).nodes, ∃ top, Lineage top m ∧ Above top.dropLast a.currentPath ∧
      (top <+: a.currentPath → top = a.currentPath) := by
  intro m hm
  obtain ⟨rp, hm⟩ := resumed_nodes hr x m hm
  rw [hst] at hm
  obtain ⟨parent, name, t, it, hsp, h1, h2, rfl⟩ := spawn_grown _ _ m rp hm
  obtain ⟨f, -, rfl, h3⟩ := honest_found hin.honest h1
  have hname : name = (prep S.nav f).name := by simpa using h3
  rw [← hr.setup.2] at hsort hread
  refine ⟨parent ++ [name], ?_, ?_, hsp.off hsort⟩
  · rw [hname]; exact items_lineage (prep_wf _ hsort hread f) h2
  · rw [List.dropLast_concat]; exact ⟨hsp.above, hsp.proper⟩

end

/-- **C72, what is false of spawn resumes**: resumed from /r/a/b, the directory /r/a/b, the file /r/a/x beside it and /r/c, /r/f and /r/g
above it have no Parent, though none of them is the root of the tree; a fastward resume from there gives them theirs. -/
theorem C72_spawn_orphans :
    let rep (st : Strategy) := walkResume sortPlatform (.relic (Demo.relic st Demo.quiet)) [] (Demo.saved ["r", "a", "b"] .universal)
      (diskOf [] Demo.fs) 0
    let orphans (st : Strategy) := ((rep st).nodes.filter (fun n => n.parents.length + ["r"].length ≠ n.path.length)).map (fun n => n.path)
    orphans .spawn = [["r", "a", "b"], ["r", "a", "b", "y"], ["r", "a", "b", "z"], ["r", "a", "x"], ["r", "c"], ["r", "c", "w"], ["r", "f"],
      ["r", "g"]] ∧ orphans .fastward = [] := by
  decide +kernel

/-- Not vacuous: what the theorems on primary sessions assume is so of the demo tree, whatever the subscription and the handler; and a
session with a filter that lets no directory but /r/a pass: the chains of what it delivers. -/
example :
    let P := sortPlatform
    let u (sub) (g) : Using Nat := { toyUsing sub with handler := some (Demo.byPath g) }
    let settings := settingsOf P [some (.filter { node := some (.plain { type := .regex, pattern := "a", scope := Scope.directory }) } none)]
    (∀ sub g, sub ≠ .undefined → Primed P (u sub g) [] (diskOf [] Demo.fs) (defaultOptions P) (Demo.byPath g) [] Demo.fs) ∧
    (defaultOptions P).Usual ∧ Demo.fs.Distinct ∧
    (∃ S o, Started P (u .universal Demo.quiet) settings (diskOf [] Demo.fs) S o (Demo.byPath Demo.quiet) [] Demo.fs ∧
      (o.nav .universal).read = defaultRead ∧ SortPermutes (o.nav .universal)) ∧
    (walkPrime P (.using (u .universal Demo.quiet)) settings (diskOf [] Demo.fs) 0).nodes.map
        (fun n => (n.path, n.parents.map (fun q => (q.path, q.depth, q.isLeaf)))) =
      [(["r", "a"], [(["r"], 0, false)]), (["r", "a", "b", "y"], [(["r", "a", "b"], 2, true), (["r", "a"], 1, false), (["r"], 0, false)]),
        (["r", "a", "b", "z"], [(["r", "a", "b"], 2, true), (["r", "a"], 1, false), (["r"], 0, false)]),
        (["r", "a", "x"], [(["r", "a"], 1, false), (["r"], 0, false)]), (["r", "c", "w"], [(["r", "c"], 1, true), (["r"], 0, false)]),
        (["r", "f"], [(["r"], 0, false)]), (["r", "g"], [(["r"], 0, false)])] := by
  intro P u settings
  refine ⟨fun sub g hs => Demo.primed sub hs _ _ _ Demo.distinct rfl rfl _, Demo.usual _, Demo.distinct, ?_, by decide +kernel⟩
  have key : ∃ S o, buildPrimary P (.using (u .universal Demo.quiet)) settings = .ready S o ∧ (∀ r, o.hooks.queryStatus.invoke r = r) ∧
      (o.nav .universal).read = defaultRead ∧ SortPermutes (o.nav .universal) :=
    ⟨_, _, rfl, fun _ => rfl, rfl, fun l => (insertSort_sorts _ l).1⟩
  obtain ⟨S', o', h1, h2, h3, h4⟩ := key
  exact ⟨S', o', ⟨h1, rfl, rfl, diskOf_holds Demo.distinct _ _ (.here [] Demo.fs), h2⟩, h3, h4⟩

end Traverse
