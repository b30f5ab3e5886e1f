import Verif.Props.SpawnDirs
import Verif.Props.Spawns
/-
C63: an interrupted session of one of the two Directories subscriptions, resumed by spawning.
-/
namespace Traverse
variable {κ : Type}

section
variable {P Q : Platform κ} {D : Drive κ} {u : Using κ} {settings₀ settings : List (Option (Setting κ))} {disk : Disk}
  {o₀ o : Options κ} {h₀ : κ → Parcel → κ × Reply} {r : Relic κ} {t rr : Bool} {pre : Path} {fs : FS}

/-- **C63** (partial, as `C63_spawn_partial`: spawn, one interruption, not at the root or directly inside it, names in the order of their
bytes; here for the two Directories subscriptions) A session is interrupted by a panic at the directory `n`, saved in `file`, and resumed by
spawning from `file` with a handler that accepts everything. The resume returns nil and is complete; the directories it delivers are exactly
those one uninterrupted session delivers from the parent of `n` on; and every directory of the uninterrupted session was accepted in the
first session or delivered in the second. (That it delivers files too: `C20_spawn_directories_partial`.) -/
theorem C63_spawn_directories_partial (T : Tale P Q D u settings₀ settings disk o₀ o h₀ r t rr pre fs) {key : String → String}
    (hst : r.strategy = .spawn) (hsub : u.sub = .directories ∨ u.sub = .directoriesWithFiles) (hp₀ : o₀.Plain key) (hp : o.Plain key)
    (hdisk : ∀ p g, FS.At pre fs p g → disk p = .ok g) (hdistinct : fs.Distinct) (hkeys : fs.KeysDiffer key) (hdir : fs.isDir = true)
    (h : κ → Parcel → κ × Reply) (hnil : Handler.Nil h) (file : String) (x : κ) (n : Node) :
    let all := (walkPrime P (.using { u with handler := some (fun k _ => (k, .ok none)) }) settings₀ disk x).calls
    let first := walkPrime P (.using u) settings₀ disk x
    let next := walkOn Q D r settings disk h file first.client
    first.verdict = .done (some (.saved file)) → (n, .panic) ∈ first.answers → Above u.tree n.path.dropLast →
    ByteOrdered (o₀.afterwards.nav u.sub) pre fs n.path.dropLast →
    next.verdict = .done none ∧ next.complete = true ∧
    next.calls.filter (fun k => k.2) = all.dropWhile (fun k => k.1 != n.path.dropLast) ∧
    ∀ k ∈ all, (∃ m, (m, .ok none) ∈ first.answers ∧ (m.path, m.isDir) = k) ∨ k ∈ next.calls := by
  intro all first next hv hm hdeep hbo
  obtain ⟨n1, n2, n3, n4⟩ := plain_nav hp₀ u.sub
  have hsort := n3.permutes
  have hread := defaultRead_selects _ n2
  have hsf : u.sub ≠ .files := by rcases hsub with h | h <;> simp [h]
  have E := tale_first T hsf hsort hread hdistinct x
  have hd0 : disk u.tree = .ok fs := T.first.disk
  have hnr : n.path ≠ u.tree := by
    intro he
    have := hdeep.1.length_le
    rw [he, List.length_dropLast, T.first.tree] at this
    simp at this
    omega
  obtain ⟨before, k, a, b1, b2, b3, b4, b5, b6, b7⟩ := E.broken n hm hnr
  have hs' : (o₀.defects.panic k a).2 = .saved file := by
    rw [show (walkPrime P (.using u) settings₀ disk x).verdict = _ from hv] at b3
    cases hc : (o₀.defects.panic k a).2 with
    | saved f => rw [hc] at b3; simp only [Rescue.err, Verdict.done.injEq, Option.some.injEq, Err.saved.injEq] at b3; rw [b3]
    | failed e => rw [hc] at b3; simp [Rescue.err] at b3
  obtain ⟨o', hl, ho⟩ := tale_loads T (Or.inl rfl) hs' b4
  -- the uninterrupted session
  have EA := tale_first (tale_accepting T) hsf hsort hread hdistinct x
  have hall : (walkPrime P (.using { u with handler := some (fun k _ => (k, .ok none)) }) settings₀ disk x).nodes =
      (items (o₀.afterwards.nav u.sub) [] pre 0 (prep (o₀.afterwards.nav u.sub) fs)).map (·.node) :=
    (EA.ended (fun n hm => by have := EA.accepts (fun _ _ => rfl) _ hm; cases this)).1
  have hcalls : ∀ rep : Report κ, rep.calls = rep.nodes.map (fun m => (m.path, m.isDir)) := by
    intro rep; simp [Report.calls, Report.nodes, Function.comp_def]
  have hitems : all = ((items (o₀.afterwards.nav u.sub) [] pre 0 (prep (o₀.afterwards.nav u.sub) fs)).map (·.node)).map
      (fun m => (m.path, m.isDir)) := by
    rw [show all = _ from hcalls _, hall]
  have hlist : all = (prep (o₀.afterwards.nav u.sub) fs).list pre := by
    rw [hitems, ← items_list _ n1 _ [] pre 0, List.map_map]; rfl
  have hE := episode_cases E (fun m hm' => by
    intro he
    have hb : (m, Reply.panic) ∈ before ++ [(n, .panic)] := by rw [← b1]; exact hm'
    rcases List.mem_append.1 hb with hb | hb
    · exact b2 _ hb rfl
    · simp only [List.mem_singleton, Prod.mk.injEq, and_true] at hb
      exact hnr (by rw [← hb]; exact he))
  rcases hE with ⟨hv', -⟩ | ⟨m, bs, rest, -, -, he, hpt, -⟩
  · rw [show (walkPrime P (.using u) settings₀ disk x).verdict = _ from hv] at hv'; cases hv'
  have hmn : n = m := by
    rw [b1] at he
    have := congrArg List.getLast? he
    simpa using this
  subst hmn
  have hdt : (prep (o₀.afterwards.nav u.sub) fs).Distinct := prep_distinct _ hsort hread fs hdistinct
  have hname : (prep (o₀.afterwards.nav u.sub) fs).name = fs.name := prep_name _ _
  obtain ⟨q, l₂, hq, hdw⟩ := part_covers hdt hpt (by rw [hname, ← T.first.tree]; exact hdeep.1)
  have hqm : q ∈ (items (o₀.afterwards.nav u.sub) [] pre 0 (prep (o₀.afterwards.nav u.sub) fs)).map (·.node) :=
    (List.dropWhile_sublist _).subset (by rw [hdw]; simp)
  have hpath : a.currentPath ∈ ((prep (o₀.afterwards.nav u.sub) fs).list pre).map Prod.fst := by
    rw [b7, ← hq, ← hlist, hitems]
    exact List.mem_map.2 ⟨(q.path, q.isDir), List.mem_map.2 ⟨q, hqm, rfl⟩, rfl⟩
  let r' : Relic κ := { r with handler := some h, «from» := file }
  have hsys : r'.systems a.tree = some (t, rr) := by
    have hs := T.systems
    unfold Relic.Systems at hs
    rw [← b5] at hs
    simp only [Relic.systems, r']
    cases hf : r.forest with
    | none => simp only [hf] at hs; simp [hs]
    | some f => simp only [hf] at hs; exact hs
  have hcore := spawnD_core (x := first.client) (r := r') (files := D.read first.client) (s := ⟨a, t, rr⟩) (h := h)
    hl ho hp hsys hst rfl hnil (by rw [b5]; exact T.first.tree) (by rw [b6]; exact hsub) hdisk hdistinct hkeys hdir
  have hnav : o.afterwards.nav a.sub = o₀.afterwards.nav u.sub := by rw [b6, T.same]
  simp only [hnav] at hcore
  obtain ⟨c1, c2, -, c4, -⟩ := hcore.2 hpath (by rw [b7, b5]; exact fun he => hdeep.2 he.symm)
  have hnext : next.calls.filter (fun k => k.2) = all.dropWhile (fun k => k.1 != n.path.dropLast) := by
    rw [hlist, ← b7]
    exact c4 (by rw [b7]; exact hbo)
  refine ⟨c1, c2, hnext, fun k hk => ?_⟩
  rw [hitems, hpt] at hk
  obtain ⟨m', hm', rfl⟩ := List.mem_map.1 hk
  rcases List.mem_append.1 hm' with hm' | hm'
  · exact Or.inl ⟨m', by rw [show first.answers = _ from he]; exact List.mem_append_left _ (List.mem_map.2 ⟨m', hm', rfl⟩), rfl⟩
  · suffices hmem : (m'.path, m'.isDir) ∈ next.calls.filter (fun k => k.2) from Or.inr (List.mem_filter.1 hmem).1
    rw [hnext, hitems]
    have hkey : (fun k : Path × Bool => k.1 != n.path.dropLast) = fun k => !decide (k.1 = n.path.dropLast) := by
      funext k; by_cases hk : k.1 = n.path.dropLast <;> simp [hk]
    rw [hkey, ← map_dropWhile_key (fun m : Node => (m.path, m.isDir)) (fun k : Path × Bool => !decide (k.1 = n.path.dropLast)), hdw]
    exact List.mem_map.2 ⟨m', List.mem_append_right _ hm', rfl⟩

end

/-- Not vacuous: a session that panics at the directory /r/a/b and its spawning resume: everything assumed is so (`Demo.tale`), and the resume
begins again with /r/a; it delivers the files /r/f and /r/g too. -/
example (sub : Subscription) (hsub : sub = .directories ∨ sub = .directoriesWithFiles) :
    let first := walkPrime (Demo.host "prime") (.using (Demo.opening sub [["r", "a", "b"]])) [] (diskOf [] Demo.fs) []
    Tale (Demo.host "prime") (Demo.host "resume") Demo.drive (Demo.opening sub [["r", "a", "b"]]) [] [] (diskOf [] Demo.fs)
      (defaultOptions (Demo.host "prime")) (defaultOptions (Demo.host "resume")) (Demo.panicAt [["r", "a", "b"]]) { strategy := .spawn }
      false false [] Demo.fs ∧
    Options.Plain toyEngine.lower (defaultOptions (Demo.host "prime")) ∧ Options.Plain toyEngine.lower (defaultOptions (Demo.host "resume")) ∧
    (∀ p g, FS.At [] Demo.fs p g → diskOf [] Demo.fs p = .ok g) ∧ Demo.fs.Distinct ∧ Demo.fs.KeysDiffer toyEngine.lower ∧
    Demo.fs.isDir = true ∧ Handler.Nil (Demo.panicAt []) ∧ first.verdict = .done (some (.saved "~/agenor/admin/resume/prime.panic..json")) ∧
    first.answers.map (fun q => (q.1.path, q.2)) = [(["r"], .ok none), (["r", "a"], .ok none), (["r", "a", "b"], .panic)] ∧
    Above ["r"] ["r", "a"] ∧ ByteOrdered ((defaultOptions (Demo.host "prime")).afterwards.nav sub) [] Demo.fs ["r", "a"] ∧
    Demo.history sub Demo.fs .spawn [["r", "a", "b"]] [[], []] =
      [([["r"], ["r", "a"], ["r", "a", "b"]], .done (some (.saved "~/agenor/admin/resume/prime.panic..json")), true),
       ([["r", "a"], ["r", "a", "b"], ["r", "c"], ["r", "f"], ["r", "g"]], .done none, true)] := by
  refine ⟨Demo.tale sub (by rcases hsub with rfl | rfl <;> decide) _ _, Demo.plain _, Demo.plain _, diskOf_holds Demo.distinct, Demo.distinct,
    ?_, rfl, fun _ _ => rfl, ?_, ?_, ⟨by decide, by decide⟩, ?_, ?_⟩
  · refine ⟨fun b => ?_, ⟨fun b => ?_, trivial, ⟨fun b => ?_, trivial, trivial, trivial⟩, trivial⟩, trivial, ⟨fun b => ?_, trivial, trivial⟩,
      trivial, trivial, trivial⟩ <;> cases b <;> decide +kernel
  · rcases hsub with rfl | rfl <;> decide +kernel
  · rcases hsub with rfl | rfl <;> decide +kernel
  · have hsort : SortPermutes ((defaultOptions (Demo.host "prime")).afterwards.nav sub) := (insertSort_sorts _).permutes
    have hread : ReadSelects ((defaultOptions (Demo.host "prime")).afterwards.nav sub) := defaultRead_selects _ rfl
    rcases hsub with rfl | rfl
    · exact (byteOrdered_iff _ hsort hread ["a"] [] Demo.fs _ Demo.distinct rfl).2 (inOrderB_inOrder _ _ (by decide +kernel))
    · exact (byteOrdered_iff _ hsort hread ["a"] [] Demo.fs _ Demo.distinct rfl).2 (inOrderB_inOrder _ _ (by decide +kernel))
  · rcases hsub with rfl | rfl <;> decide +kernel

end Traverse
