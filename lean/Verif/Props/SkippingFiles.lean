import Verif.Props.Skipping
/-
C77: skip sentinels while resuming by spawn, subscription Files.
-/
namespace Traverse
variable {κ σ : Type}

/-- The depth of a node is the depth of the navigation's start and the number of its parents. -/
theorem items_parents (c : Nav) (t : Tree) : ∀ ps pp d, ∀ it ∈ items c ps pp d t,
    it.node.depth + ps.length = d + it.node.parents.length := by
  induction t using Tree.ind with
  | h e r fs ds kids ih =>
    intro ps pp d it hit
    simp only [items] at hit
    split at hit
    · simp at hit
    · rcases List.mem_cons.1 hit with rfl | hk
      · simp [mkNode, periDepth]
      · have hl : ∀ ts : List Tree, (∀ t ∈ ts, t ∈ kids) → ∀ ps' pp' d', it ∈ itemsList c ps' pp' d' ts →
            it.node.depth + ps'.length = d' + it.node.parents.length := by
          intro ts
          induction ts with
          | nil => intro _ ps' pp' d' h; simp [itemsList] at h
          | cons t ts iht =>
            intro hsub ps' pp' d' h
            rw [itemsList] at h
            rcases List.mem_append.1 h with h | h
            · exact ih t (hsub t (by simp)) ps' pp' d' it h
            · exact iht (fun t ht => hsub t (by simp [ht])) ps' pp' d' h
        have := hl kids (fun _ h => h) _ _ _ hk
        simp only [List.length_cons] at this
        push_cast at this
        omega

/-- Files: SkipDir ends a navigation, and so does any error at its start or directly inside it. -/
theorem run_files_ends {d0 : Int} {l : List Item} {evs : List Ev} {f : Final} (hr : Run .files d0 l evs f) {n : Node} {e : Err} :
    Ev.invoke n (.ok (some e)) ∈ evs → e.isSkipDir = true ∨ n.depth ≤ d0 + 1 →
    f = .done (some e) ∧ ∃ es, evs = es ++ [.invoke n (.ok (some e))] := by
  have key : ∀ {it : Item} {evs a}, Step .files it evs a → Ev.invoke n (.ok (some e)) ∈ evs →
      a = .done (.ret false (some e)) ∧ evs = [.invoke n (.ok (some e))] ∧ it.node = n := by
    intro it evs a hs hm
    cases hs with
    | panicked => simp at hm
    | file e' h hn => simp at hm; obtain ⟨rfl, rfl⟩ := hm; exact ⟨rfl, rfl, rfl⟩
    | failed e' h => exact absurd rfl h
    | asked sk e h => exact absurd rfl h
    | askedOnly => simp at hm
  induction hr with
  | nil => intro h; simp at h
  | travel hs hr ih =>
    intro hm he
    rcases List.mem_append.1 hm with h | h
    · cases (key hs h).1
    · obtain ⟨h1, es, h2⟩ := ih h he
      exact ⟨h1, _ ++ es, by rw [h2, List.append_assoc]⟩
  | root hs hd =>
    intro hm he
    obtain ⟨h1, h2, -⟩ := key hs hm
    cases h1
    exact ⟨rfl, [], h2⟩
  | next hs hd hn hr ih =>
    intro hm he
    rcases List.mem_append.1 hm with h | h
    · cases (key hs h).1
      rcases hn with h | ⟨h, -⟩ <;> cases h
    · obtain ⟨h1, es, h2⟩ := ih h he
      exact ⟨h1, _ ++ es, by rw [h2, List.append_assoc]⟩
  | leave hs hd hn ha hr ih =>
    intro hm he
    rcases List.mem_append.1 hm with h | h
    · obtain ⟨k1, -, k3⟩ := key hs h
      cases k1
      rcases he with he | he
      · rw [hn] at he; cases he
      · rw [k3] at hd; omega
    · obtain ⟨h1, es, h2⟩ := ih h he
      exact ⟨h1, _ ++ es, by rw [h2, List.append_assoc]⟩
  | leaveTop hs hd hn ha =>
    intro hm he
    obtain ⟨h1, h2, -⟩ := key hs hm
    cases h1
    exact ⟨rfl, [], h2⟩
  | stop hs hd hst =>
    intro hm he
    obtain ⟨h1, h2, -⟩ := key hs hm
    cases h1
    exact ⟨rfl, [], h2⟩
  | crash hs hd hp =>
    intro hm he
    rcases List.mem_append.1 hm with h | h
    · cases (key hs h).1
    · simp at h

theorem legs_files_end {c : Nav} (hsub : c.sub = .files) (env : Env σ) (fault) (stat : Path → RootStat) (legs : List (Path × String)) : ∀ s : St σ,
    ∃ vs, acts (goLegs c env fault stat legs s).2.log = acts s.log ++ vs ∧
      ∀ n e, Ev.invoke n (.ok (some e)) ∈ vs → e.isSkipDir = true ∨ n.parents.length ≤ 1 →
        (goLegs c env fault stat legs s).1 = .done (some e) ∧ ∃ es, vs = es ++ [.invoke n (.ok (some e))] := by
  induction legs with
  | nil => intro s; exact ⟨[], by simp [goLegs], fun n e h => by simp at h⟩
  | cons l ls ih =>
    intro s
    have key : ∃ vs, acts (top c env fault l.1 (l.1 ++ [l.2]) (stat (l.1 ++ [l.2])) s).2.log = acts s.log ++ vs ∧
        ∀ n e, Ev.invoke n (.ok (some e)) ∈ vs → e.isSkipDir = true ∨ n.parents.length ≤ 1 →
          (top c env fault l.1 (l.1 ++ [l.2]) (stat (l.1 ++ [l.2])) s).1 = .done (some e) ∧ ∃ es, vs = es ++ [.invoke n (.ok (some e))] := by
      cases stat (l.1 ++ [l.2]) with
      | error e => exact ⟨[], by simp [top], fun n e h => by simp at h⟩
      | found t =>
        simp only [top]
        cases hd : tooDeep c s.depth with
        | true =>
          have : traverse c env [] l.1 t s = (.ret true none, s) := by
            cases t; simp only [traverse, hd, if_true]
          rw [this]
          exact ⟨[], by simp, fun n e h => by simp at h⟩
        | false =>
          obtain ⟨vs, -, h2, h3⟩ := top_run c env l.1 t s hd
          refine ⟨vs, h2, fun n e hm he => ?_⟩
          obtain ⟨it, hit, hn⟩ := h3.invoke_mem hm
          have hp := items_parents c t [] l.1 s.depth it hit
          rw [hn] at hp
          rw [hsub] at h3
          refine run_files_ends h3 hm (he.imp id (fun h => ?_))
          simp only [List.length_nil] at hp
          omega
    obtain ⟨vs, k1, k2⟩ := key
    simp only [goLegs]
    rcases ht : top c env fault l.1 (l.1 ++ [l.2]) (stat (l.1 ++ [l.2])) s with ⟨(_ | e) | _, s1⟩ <;> rw [ht] at k1 k2
    · obtain ⟨ws, w1, w2⟩ := ih s1
      refine ⟨vs ++ ws, by rw [w1, k1, List.append_assoc], fun n e hm he => ?_⟩
      rcases List.mem_append.1 hm with h | h
      · cases (k2 n e h he).1
      · obtain ⟨g1, es, g2⟩ := w2 n e h he
        exact ⟨g1, vs ++ es, by rw [g2, List.append_assoc]⟩
    · exact ⟨vs, k1, k2⟩
    · exact ⟨vs, k1, k2⟩

/-- **C77** (spawn, Files; partial) Whatever the handler answers: if it answers SkipDir, or any error for a file at which a navigation of the
resume starts (one without Parent: the saved path, or a later sibling of it or of a directory above it) or that lies directly in such a start,
then that is the last answer, Navigate returns it, and the session says it is incomplete.

Missing: a sentinel should only leave out files; that is false of the code (`C77_spawn_files_ends`). -/
theorem C77_spawn_files_partial (P : Platform κ) (r : Relic κ) (settings : List (Option (Setting κ))) (files : String → Except Err Json)
    (disk : Disk) (o : Options κ) (h : κ → Parcel → κ × Reply) (a : Active)
    (hplat : resumePlatform P r settings (files r.from) = .ok (o, a)) (hst : r.strategy = .spawn) (hh : r.handler = some h)
    (hb : o.Bare) (hfiles : a.sub = .files) (x : κ) (n : Node) (e : Err) :
    let rep := walkResume P (.relic r) settings files disk x
    (n, .ok (some e)) ∈ rep.answers → e.isSkipDir = true ∨ n.parents.length ≤ 1 →
      rep.verdict = .done (some e) ∧ rep.complete = false ∧ ∃ before, rep.answers = before ++ [(n, .ok (some e))] := by
  intro rep hm he
  obtain ⟨w, h1, h2, -, h4⟩ := sprout_run (disk := disk) hplat hst hh hb (by rw [hfiles]; simp) x
  obtain ⟨vs, l1, l2⟩ := legs_files_end (c := (sproutSetup o a.sub).nav) hfiles (bareEnv (sproutSetup o a.sub) (o.client h) a.tree) o.fault
    (statOf (sproutSetup o a.sub).nav o.afterwards disk) (legsOf (sproutSetup o a.sub).nav disk a.tree a.currentPath.reverse true).1
    ⟨a.depth, w, []⟩
  rw [acts_nil, List.nil_append] at l1
  rw [show rep.answers = _ from h2, ← calls_acts, l1] at hm
  obtain ⟨g1, es, g2⟩ := l2 n e (mem_calls.1 hm) he
  have ec : ∀ (le : Final × Bool) (q : Final × St (World κ)), q.1 = .done (some e) → (afterLegs le q).1 = .done (some e) ∧
      (afterLegs le q).2.1 = false := by
    rintro le ⟨_, s⟩ rfl
    exact ⟨rfl, rfl⟩
  obtain ⟨c1, c2⟩ := ec (legsOf (sproutSetup o a.sub).nav disk a.tree a.currentPath.reverse true).2 _ g1
  have hv : rep.verdict = .done (some e) := by rw [show rep.verdict = _ from h1, c1]; rfl
  refine ⟨hv, ?_, calls es, ?_⟩
  · rw [show rep.complete = _ from h4 (by rw [show (walkResume P (.relic r) settings files disk x).verdict = _ from hv]; simp), c2]
  · rw [show rep.answers = _ from h2, ← calls_acts, l1, g2]
    simp [calls]

/-- **C77, what is false of spawn for Files**: resuming the demo session at /r/a. SkipDir, which should leave out the rest of the file's
directory, ends the resume wherever it is answered: for /r/a/b/y, for /r/a/x, for /r/f. SkipAll, which should end everything, for /r/a/b/y
only leaves out the rest of /r/a/b; the session says it is complete. -/
theorem C77_spawn_files_ends :
    let go (e : Err) (at_ : Path) := walkResume sortPlatform (.relic (Demo.relic .spawn (Demo.at_ at_ (.ok (some e))))) []
      (Demo.saved ["r", "a"] .files) (diskOf [] Demo.fs) 0
    let paths (e : Err) (at_ : Path) := (go e at_).nodes.map (fun n => n.path)
    let whole : List Path := [["r", "a", "b", "y"], ["r", "a", "b", "z"], ["r", "a", "x"], ["r", "c", "w"], ["r", "f"], ["r", "g"]]
    paths .skipDir [] = whole ∧
    (go .skipDir ["r", "a", "b", "y"]).verdict = .done (some .skipDir) ∧ (go .skipDir ["r", "a", "b", "y"]).complete = false ∧
    paths .skipDir ["r", "a", "b", "y"] = whole.take 1 ∧
    (go .skipDir ["r", "a", "x"]).verdict = .done (some .skipDir) ∧ paths .skipDir ["r", "a", "x"] = whole.take 3 ∧
    (go .skipDir ["r", "f"]).verdict = .done (some .skipDir) ∧ paths .skipDir ["r", "f"] = whole.dropLast ∧
    (go .skipAll ["r", "a", "b", "y"]).verdict = .done none ∧ (go .skipAll ["r", "a", "b", "y"]).complete = true ∧
    paths .skipAll ["r", "a", "b", "y"] = whole.filter (fun p => p ≠ ["r", "a", "b", "z"]) := by
  decide +kernel

/-- Not vacuous: of the resume above at /r/a/x everything assumed by `C77_spawn_files_partial` is so, and there is such an answer. -/
example :
    let P := sortPlatform
    let r := Demo.relic .spawn (Demo.at_ ["r", "a", "x"] (.ok (some .skipDir)))
    let files := Demo.saved ["r", "a"] .files
    let a := (savedAt ["r"] ["r", "a"] .files).active
    (∃ o, resumePlatform P r [] (files r.from) = .ok (o, a) ∧ o.Bare) ∧ a.sub = .files ∧
      (walkResume P (.relic r) [] files (diskOf [] Demo.fs) 0).answers.any (fun q => q.2 = .ok (some .skipDir)) = true := by
  intro P r files a
  obtain ⟨doc, h1, h2⟩ := roundTrip P (defaultOptions P) (savedAt ["r"] ["r", "a"] .files)
  have hf : files r.from = .ok doc := by
    simp only [P] at h1
    simp only [files, Demo.saved, savedFile, h1]
  refine ⟨⟨fromJSON P (toJSON (defaultOptions P)), ?_, ⟨rfl, rfl, rfl, rfl, rfl, rfl, rfl⟩⟩, rfl, by decide +kernel⟩
  rw [hf]
  simp only [resumePlatform, h2, bindOptions]
  rfl

end Traverse
