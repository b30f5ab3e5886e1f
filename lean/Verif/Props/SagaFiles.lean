import Verif.Proofs.SagaFiles
import Verif.Props.Spawns
/-
C63: an interrupted Files session, resumed by spawning.
-/
namespace Traverse
variable {κ : Type}

section
variable {P Q : Platform κ} {D : Drive κ} {u : Using κ} {settings₀ settings : List (Option (Setting κ))} {disk : Disk}
  {o₀ o : Options κ} {h₀ : κ → Parcel → κ × Reply} {r : Relic κ} {t rr : Bool} {pre : Path} {fs : FS}

theorem tale_first_files (T : Tale P Q D u settings₀ settings disk o₀ o h₀ r t rr pre fs) {key : String → String} (hsub : u.sub = .files)
    (hp₀ : o₀.Plain key) (hdistinct : fs.Distinct) (x : κ) :
    Episode D.read o₀.defects.panic u.tree u.sub
      (onlyFiles ((items (o₀.afterwards.nav u.sub) [] pre 0 (prep (o₀.afterwards.nav u.sub) fs)).map (·.node))) h₀
      (walkPrime P (.using u) settings₀ disk x) := by
  obtain ⟨n1, n2, n3, n4⟩ := plain_nav hp₀ u.sub
  have hsort := n3.permutes
  have hread := defaultRead_selects _ n2
  have h1 := started_session (primed_started T.first) x
  have hC : o₀.afterwards.client h₀ = o₀.client h₀ := rfl
  rw [hC] at h1
  simp only at h1
  have hlis : ∀ k n p, D.read ((o₀.client h₀).listen k n) p = D.read k p := T.quiet₀
  obtain ⟨e1, e2, e3, e3', e4⟩ := session_files_episode (primed_bare o₀ u.sub) (o₀.client h₀) ((o₀.client h₀).listen x (.begin u.tree))
    (fun _ => none) [] pre fs hsub hsort n2 hdistinct hp₀.skip T.holds
  have hsv := session_saved (primedSetup o₀ u.sub) (o₀.client h₀) hlis ((o₀.client h₀).listen x (.begin u.tree)) (fun _ => none) [] pre fs
    hsort hread
  have hnav : (primedSetup o₀ u.sub).nav = o₀.afterwards.nav u.sub := rfl
  rw [hnav] at e2 e4 hsv
  simp only at hsv
  generalize (primedSetup o₀ u.sub).session (o₀.client h₀) ((o₀.client h₀).listen x (.begin u.tree)) (fun _ => none) [] pre fs = R at *
  have hhits : (walkPrime P (.using u) settings₀ disk x).hits = R.2.ext.hits := by rw [h1]; cases R.1 <;> rfl
  have hv : (walkPrime P (.using u) settings₀ disk x).verdict = R.1.verdict := by rw [h1]; cases R.1 <;> rfl
  have hn : ∀ rep : Report κ, rep.nodes = rep.answers.map Prod.fst := by
    intro rep; simp [Report.nodes, Report.answers, Function.comp_def]
  have ha : (walkPrime P (.using u) settings₀ disk x).answers = R.2.ext.hits.map (fun h => (h.parcel.node, h.reply)) := by
    rw [Report.answers, hhits]
  refine ⟨?_, ?_, ?_, ?_, ?_⟩
  · rw [hn, ha]; exact e2
  · rw [ha]; exact e3
  · rw [ha]; exact e3'
  · rw [hn, ha, hv]
    intro hnp
    obtain ⟨g1, g2⟩ := e4 hnp
    exact ⟨g1, by rw [g2]; rfl⟩
  · rw [ha, hv]
    intro n hm hroot
    rw [e1] at hm ⊢
    obtain ⟨before, k, a, s1, s2, s3, s4, s5, s6, s7⟩ := hsv n hm (by rw [← T.first.tree]; exact hroot)
    refine ⟨before, k, a, s1, s2, by rw [s3]; rfl, fun p => ?_, by rw [T.first.tree]; exact s5, s6, s7⟩
    rw [h1, s3]
    exact (hlis _ _ _).trans (s4 p)

/-- **C63** (partial, as `C63_spawn_partial`: spawn, one interruption, not at a file directly inside the root, names in the order of their
bytes; here for the subscription Files) A session is interrupted by a panic at the file `n`, saved in `file`, and resumed by spawning from
`file` with a handler that accepts everything. The resume returns nil and is complete; it delivers exactly the files that a Universal
session delivers from the directory of `n` on, `n` among them; and every file of the uninterrupted session was accepted in the first session
or delivered in the second. -/
theorem C63_spawn_files_partial (T : Tale P Q D u settings₀ settings disk o₀ o h₀ r t rr pre fs) {key : String → String}
    (hst : r.strategy = .spawn) (hsub : u.sub = .files) (hp₀ : o₀.Plain key) (hp : o.Plain key)
    (hdisk : ∀ p g, FS.At pre fs p g → disk p = .ok g) (hdistinct : fs.Distinct) (hkeys : fs.KeysDiffer key)
    (h : κ → Parcel → κ × Reply) (hnil : Handler.Nil h) (file : String) (x : κ) (n : Node) :
    let accepting : Using κ := { u with handler := some (fun k _ => (k, .ok none)) }
    let whole := (walkPrime P (.using { accepting with sub := .universal }) settings₀ disk x).calls
    let all := (walkPrime P (.using accepting) settings₀ disk x).calls
    let first := walkPrime P (.using u) settings₀ disk x
    let next := walkOn Q D r settings disk h file first.client
    first.verdict = .done (some (.saved file)) → (n, .panic) ∈ first.answers → Above u.tree n.path.dropLast →
    ByteOrdered (o₀.afterwards.nav .files) pre fs n.path.dropLast →
    next.verdict = .done none ∧ next.complete = true ∧
    next.calls = (whole.dropWhile (fun k => k.1 != n.path.dropLast)).filter (fun k => !k.2) ∧ (n.path, false) ∈ next.calls ∧
    ∀ k ∈ all, (∃ m, (m, .ok none) ∈ first.answers ∧ (m.path, m.isDir) = k) ∨ k ∈ next.calls := by
  intro accepting whole all first next hv hm hdeep hbo
  obtain ⟨n1, n2, n3, n4⟩ := plain_nav hp₀ u.sub
  have hsort := n3.permutes
  have hread := defaultRead_selects _ n2
  have E := tale_first_files T hsub hp₀ hdistinct x
  have hd0 : disk u.tree = .ok fs := T.first.disk
  have hnr : n.path ≠ u.tree := by
    intro he
    have := hdeep.1.length_le
    rw [he, List.length_dropLast, T.first.tree] at this
    simp at this
    omega
  obtain ⟨before, k, a, b1, b2, b3, b4, b5, b6, b7⟩ := E.broken n hm hnr
  have hs' : (o₀.defects.panic k a).2 = .saved file := by
    rw [show (walkPrime P (.using u) settings₀ disk x).verdict = _ from hv] at b3
    cases hc : (o₀.defects.panic k a).2 with
    | saved f => rw [hc] at b3; simp only [Rescue.err, Verdict.done.injEq, Option.some.injEq, Err.saved.injEq] at b3; rw [b3]
    | failed e => rw [hc] at b3; simp [Rescue.err] at b3
  obtain ⟨o', hl, ho⟩ := tale_loads T (Or.inl rfl) hs' b4
  -- the uninterrupted session
  have EA := tale_first_files (tale_accepting T) hsub hp₀ hdistinct x
  have hall : (walkPrime P (.using accepting) settings₀ disk x).nodes =
      onlyFiles ((items (o₀.afterwards.nav u.sub) [] pre 0 (prep (o₀.afterwards.nav u.sub) fs)).map (·.node)) :=
    (EA.ended (fun n hm => by have := EA.accepts (fun _ _ => rfl) _ hm; cases this)).1
  have hcalls : ∀ rep : Report κ, rep.calls = rep.nodes.map (fun m => (m.path, m.isDir)) := by
    intro rep; simp [Report.calls, Report.nodes, Function.comp_def]
  have hwhole : whole = (prep (o₀.afterwards.nav u.sub) fs).list pre := by
    have := (plain_primary (x := x) (u := { accepting with sub := .universal }) T.first.noOptions T.first.options hp₀
      (by simp) rfl (fun _ _ => rfl) T.first.tree hd0 hdistinct).2
    rw [show whole = _ from this, hsub]
    have e1 : ∀ l : List (Path × Bool), l.filter (shows (o₀.afterwards.nav .universal)) = l := by
      intro l; rw [List.filter_eq_self]; intro a _; simp [shows, Options.nav]
    have e3 : prep (o₀.afterwards.nav .universal) fs = prep (o₀.afterwards.nav .files) fs :=
      (prep_files_universal (o₀.afterwards.nav .files) fs).symm
    simp only [e1, e3]
  have hlist : (items (o₀.afterwards.nav u.sub) [] pre 0 (prep (o₀.afterwards.nav u.sub) fs)).map Item.key =
      (prep (o₀.afterwards.nav u.sub) fs).list pre := items_list _ n1 _ [] pre 0
  have hitems : ((items (o₀.afterwards.nav u.sub) [] pre 0 (prep (o₀.afterwards.nav u.sub) fs)).map (·.node)).map
      (fun m => (m.path, m.isDir)) = whole := by
    rw [hwhole, ← hlist, List.map_map]; rfl
  -- the first session is a prefix
  have hE := episode_cases E (fun m hm' => by
    intro he
    have hb : (m, Reply.panic) ∈ before ++ [(n, .panic)] := by rw [← b1]; exact hm'
    rcases List.mem_append.1 hb with hb | hb
    · exact b2 _ hb rfl
    · simp only [List.mem_singleton, Prod.mk.injEq, and_true] at hb
      exact hnr (by rw [← hb]; exact he))
  rcases hE with ⟨hv', -⟩ | ⟨m, bs, rest, -, -, he, hpt, -⟩
  · rw [show (walkPrime P (.using u) settings₀ disk x).verdict = _ from hv] at hv'; cases hv'
  have hmn : n = m := by
    rw [b1] at he
    have := congrArg List.getLast? he
    simpa using this
  subst hmn
  have hdt : (prep (o₀.afterwards.nav u.sub) fs).Distinct := prep_distinct _ hsort hread fs hdistinct
  have hname : (prep (o₀.afterwards.nav u.sub) fs).name = fs.name := prep_name _ _
  obtain ⟨l1, l2, hsplit, hl1, hl2⟩ := List.filter_eq_append_iff.1 hpt
  obtain ⟨l3, l4, hsplit2, hl3, hnf, hl4⟩ := List.filter_eq_cons_iff.1 hl2
  have hsp : (items (o₀.afterwards.nav u.sub) [] pre 0 (prep (o₀.afterwards.nav u.sub) fs)).map (·.node) = (l1 ++ l3) ++ n :: l4 := by
    rw [hsplit, hsplit2, List.append_assoc]
  obtain ⟨q, l₂, hq, hdw⟩ := part_covers hdt hsp (by rw [hname, ← T.first.tree]; exact hdeep.1)
  have hqm : q ∈ (items (o₀.afterwards.nav u.sub) [] pre 0 (prep (o₀.afterwards.nav u.sub) fs)).map (·.node) :=
    (List.dropWhile_sublist _).subset (by rw [hdw]; simp)
  have hpath : a.currentPath ∈ (fs.nodes pre).map Prod.fst := by
    rw [b7, ← hq]
    obtain ⟨it, hit, rfl⟩ := List.mem_map.1 hqm
    have := (items_nodes _ hsort n2 n1 (by rw [n4, hsub]; decide) (by rw [n4, hsub]; decide) fs [] pre 0).subset
      (List.mem_map.2 ⟨it, hit, rfl⟩)
    exact List.mem_map.2 ⟨_, this, rfl⟩
  let r' : Relic κ := { r with handler := some h, «from» := file }
  have hsys : r'.systems a.tree = some (t, rr) := by
    have hs := T.systems
    unfold Relic.Systems at hs
    rw [← b5] at hs
    simp only [Relic.systems, r']
    cases hf : r.forest with
    | none => simp only [hf] at hs; simp [hs]
    | some f => simp only [hf] at hs; exact hs
  obtain ⟨R, c1, c2, c3, -, c5, -⟩ := spawn_core (x := first.client) (r := r') (files := D.read first.client) (s := ⟨a, t, rr⟩) (h := h)
    hl ho hp hsys hst rfl hnil (by rw [b5]; exact T.first.tree) (Or.inr (by rw [b6]; exact hsub)) hdisk hdistinct hkeys hpath
    (by rw [b7, ← T.first.tree]; exact fun he => hdeep.2 he.symm)
  have hnav : o.afterwards.nav a.sub = o₀.afterwards.nav u.sub := by rw [b6, T.same]
  simp only [hnav] at c3 c5
  have hsh : ∀ l : List (Path × Bool), l.filter (shows (o₀.afterwards.nav u.sub)) = l.filter (fun k => !k.2) := by
    intro l; apply List.filter_congr; intro a _; simp [shows, Options.nav, hsub]
  rw [hsh] at c3
  have hnext : next.calls = (whole.dropWhile (fun k => k.1 != n.path.dropLast)).filter (fun k => !k.2) := by
    rw [show next.calls = _ from c3, c5 (by rw [b7, hsub]; exact hbo), b7, hwhole]
  have hkey : (fun k : Path × Bool => k.1 != n.path.dropLast) = fun k => !decide (k.1 = n.path.dropLast) := by
    funext k; by_cases hk : k.1 = n.path.dropLast <;> simp [hk]
  have hback : ∀ m ∈ n :: l4, m.isDir = false → (m.path, m.isDir) ∈ next.calls := by
    intro m hm hf
    rw [hnext, ← hitems, hkey,
      ← map_dropWhile_key (fun m : Node => (m.path, m.isDir)) (fun k : Path × Bool => !decide (k.1 = n.path.dropLast)), hdw]
    exact List.mem_filter.2 ⟨List.mem_map.2 ⟨m, List.mem_append_right _ hm, rfl⟩, by simp [hf]⟩
  have hnf' : n.isDir = false := by simpa using hnf
  refine ⟨c1, c2, hnext, ?_, fun k hk => ?_⟩
  · have := hback n (by simp) hnf'
    rw [hnf'] at this; exact this
  · have hkm : k ∈ (onlyFiles ((items (o₀.afterwards.nav u.sub) [] pre 0 (prep (o₀.afterwards.nav u.sub) fs)).map (·.node))).map
        (fun m => (m.path, m.isDir)) := by
      rw [← hall, ← hcalls]; exact hk
    rw [hpt] at hkm
    obtain ⟨m', hm', rfl⟩ := List.mem_map.1 hkm
    rcases List.mem_append.1 hm' with hm' | hm'
    · exact Or.inl ⟨m', by rw [show first.answers = _ from he]; exact List.mem_append_left _ (List.mem_map.2 ⟨m', hm', rfl⟩), rfl⟩
    · refine Or.inr ?_
      rcases List.mem_cons.1 hm' with rfl | hm'
      · exact hback _ (by simp) hnf'
      · rw [← hl4] at hm'
        obtain ⟨g1, g2⟩ := List.mem_filter.1 hm'
        exact hback m' (by simp [g1]) (by simpa using g2)

end

/-- Not vacuous: a Files session that panics at /r/a/b/z and its spawning resume: everything assumed is so (`Demo.tale` with the subscription
Files), the panic is at z, and the resume begins again with y. -/
example :
    let first := walkPrime (Demo.host "prime") (.using (Demo.opening .files [["r", "a", "b", "z"]])) [] (diskOf [] Demo.fs) []
    Tale (Demo.host "prime") (Demo.host "resume") Demo.drive (Demo.opening .files [["r", "a", "b", "z"]]) [] [] (diskOf [] Demo.fs)
      (defaultOptions (Demo.host "prime")) (defaultOptions (Demo.host "resume")) (Demo.panicAt [["r", "a", "b", "z"]]) { strategy := .spawn }
      false false [] Demo.fs ∧
    Options.Plain toyEngine.lower (defaultOptions (Demo.host "prime")) ∧ Options.Plain toyEngine.lower (defaultOptions (Demo.host "resume")) ∧
    (∀ p g, FS.At [] Demo.fs p g → diskOf [] Demo.fs p = .ok g) ∧ Demo.fs.Distinct ∧ Demo.fs.KeysDiffer toyEngine.lower ∧
    Handler.Nil (Demo.panicAt []) ∧ first.verdict = .done (some (.saved "~/agenor/admin/resume/prime.panic..json")) ∧
    first.answers.map (fun q => (q.1.path, q.2)) = [(["r", "a", "b", "y"], .ok none), (["r", "a", "b", "z"], .panic)] ∧
    Above ["r"] ["r", "a", "b"] ∧ ByteOrdered ((defaultOptions (Demo.host "prime")).afterwards.nav .files) [] Demo.fs ["r", "a", "b"] ∧
    Demo.history .files Demo.fs .spawn [["r", "a", "b", "z"]] [[], []] =
      [([["r", "a", "b", "y"], ["r", "a", "b", "z"]], .done (some (.saved "~/agenor/admin/resume/prime.panic..json")), true),
       ([["r", "a", "b", "y"], ["r", "a", "b", "z"], ["r", "a", "x"], ["r", "c", "w"], ["r", "f"], ["r", "g"]], .done none, true)] := by
  refine ⟨Demo.tale .files (by decide) _ _, Demo.plain _, Demo.plain _, diskOf_holds Demo.distinct, Demo.distinct, ?_, fun _ _ => rfl,
    by decide +kernel, by decide +kernel, ⟨by decide, by decide⟩, ?_, by decide +kernel⟩
  · refine ⟨fun b => ?_, ⟨fun b => ?_, trivial, ⟨fun b => ?_, trivial, trivial, trivial⟩, trivial⟩, trivial, ⟨fun b => ?_, trivial, trivial⟩,
      trivial, trivial, trivial⟩ <;> cases b <;> decide +kernel
  · have hsort : SortPermutes ((defaultOptions (Demo.host "prime")).afterwards.nav .files) := (insertSort_sorts _).permutes
    have hread : ReadSelects ((defaultOptions (Demo.host "prime")).afterwards.nav .files) := defaultRead_selects _ rfl
    exact (byteOrdered_iff _ hsort hread ["a", "b"] [] Demo.fs _ Demo.distinct rfl).2 (inOrderB_inOrder _ _ (by decide +kernel))

end Traverse
