import Verif.Proofs.FilesSkip
import Verif.Props.Visit
/-
C08 – C12, C14, C16, C17: what the handler's, skip handler's and fault handler's answers lead to.
-/
namespace Traverse
variable {σ τ : Type}

/-- The handler answers nil or a skip sentinel (or an error wrapping one). -/
def OnlySkips (env : Env σ) : Prop :=
  ∀ x n, (env.invoke x n).2 = .ok none ∨ ∃ e, (env.invoke x n).2 = .ok (some e) ∧ e.isSentinel = true

/-- The skip handler always answers SkipNone (with whatever error value). -/
def SkipNone (env : Env σ) : Prop := ∀ x n re, (env.ask x n re).2.1 = .none

theorem DefaultSkip.skipNone {env : Env σ} (h : DefaultSkip env) : SkipNone env := fun x n re => by rw [h x n re]

theorem declined_of_skipNone {sub : Subscription} (hsub : sub ≠ .files) {l : List Ev}
    (h : ∀ n re sk e, Ev.ask n re sk e ∈ l → sk = .none) : declined sub l = refused l := by
  simp only [declined, refused]
  induction l with
  | nil => rfl
  | cons ev l ih =>
    have ih := ih (fun n re sk e hm => h n re sk e (by simp [hm]))
    cases ev with
    | ask n re sk e =>
      have := h n re sk e (by simp)
      subst this
      have hv : verdict sub re .none e = .travel := by cases sub <;> simp_all [verdict]
      simp [List.filterMap_cons, hv, ih]
    | invoke n r =>
      rcases r with (_ | e) | _ <;> simp [List.filterMap_cons, ih]
    | _ => simp [List.filterMap_cons, ih]

theorem declined_acts (sub : Subscription) (l : List Ev) : declined sub (acts l) = declined sub l := by
  induction l with
  | nil => rfl
  | cons x xs ih => cases x <;> simp_all [acts, declined, List.filter_cons, Ev.isAct, List.filterMap_cons]

theorem refused_acts (l : List Ev) : refused (acts l) = refused l := by
  induction l with
  | nil => rfl
  | cons x xs ih => cases x <;> simp_all [acts, refused, List.filter_cons, Ev.isAct, List.filterMap_cons]

/-- Reference: what an accepting handler is shown. -/
theorem walk_reference (c : Nav) (env0 : Env τ) (x0 : τ) (pre : Path) (fs : FS) (hsub : c.sub ≠ .files)
    (hsort : SortPermutes c) (hread : ReadSelects c) (hdistinct : fs.Distinct)
    (hnil0 : AlwaysNil env0) (hskip0 : DefaultSkip env0) :
    invoked (walk c env0 x0 pre fs).2.log = (items c [] pre 0 (prep c fs)).map (·.node) := by
  rw [(walk_accepting c env0 x0 pre fs hsort hread hnil0 hskip0 hdistinct (fun h => absurd h hsub)).1]
  exact List.filter_eq_self.2 (by simp [hsub])

theorem walk_pruned (c : Nav) (env : Env σ) (x : σ) (pre : Path) (fs : FS) (hsub : c.sub ≠ .files)
    (hsort : SortPermutes c) (hread : ReadSelects c) (hdistinct : fs.Distinct)
    (hask : ∀ n re sk e, Ev.ask n re sk e ∈ (walk c env x pre fs).2.log → e = none ∨ sk = .none) :
    invoked (walk c env x pre fs).2.log <+: ((items c [] pre 0 (prep c fs)).map (·.node)).filter
      (outside (declined c.sub (walk c env x pre fs).2.log)) ∧
    ((∀ n r, Ev.invoke n r ∈ (walk c env x pre fs).2.log → r ≠ .panic ∧ ∀ e, r = .ok (some e) → ¬ Genuine e) →
      invoked (walk c env x pre fs).2.log = ((items c [] pre 0 (prep c fs)).map (·.node)).filter
        (outside (declined c.sub (walk c env x pre fs).2.log)) ∧
      ((walk c env x pre fs).1 = .done none ∨ ∃ n e, Ev.invoke n (.ok (some e)) ∈ (walk c env x pre fs).2.log ∧
        n.depth = 0 ∧ (walk c env x pre fs).1 = .done (some e))) := by
  have := (walk_run c env x pre fs).pruned hsub (items_preOrder c _ (prep_distinct c hsort hread fs hdistinct) [] pre 0)
    (fun n re sk e hm => hask n re sk e (mem_acts hm)) (items_root c _ [] pre 0)
  rw [invoked_acts, declined_acts] at this
  refine ⟨this.1, fun hg => ?_⟩
  obtain ⟨h1, h2⟩ := this.2 (fun n r hm => hg n r (mem_acts hm))
  refine ⟨h1, ?_⟩
  rcases h2 with h2 | ⟨n, e, hm, hd, hf⟩
  · exact Or.inl h2
  · exact Or.inr ⟨n, e, mem_acts hm, hd, hf⟩

/-- **C08** SkipDir prunes exactly that subtree: with a handler that answers nil or a skip sentinel, it is shown
exactly the nodes an always accepting handler is shown, minus those strictly below a node for which it returned
the sentinel; and Navigate returns nil unless the sentinel was returned for the root itself. -/
theorem C08_skipDir_prunes (c : Nav) (env : Env σ) (x : σ) (env0 : Env τ) (x0 : τ) (pre : Path) (fs : FS)
    (hsub : c.sub ≠ .files) (hsort : SortPermutes c) (hread : ReadSelects c) (hdistinct : fs.Distinct)
    (hcb : OnlySkips env) (hskip : SkipNone env) (hnil0 : AlwaysNil env0) (hskip0 : DefaultSkip env0) :
    let W := walk c env x pre fs
    invoked W.2.log = (invoked (walk c env0 x0 pre fs).2.log).filter
      (fun m => decide (∀ p ∈ refused W.2.log, ¬ Above p m.path)) ∧
    (W.1 = .done none ∨
      ∃ n e, (n, .ok (some e)) ∈ calls W.2.log ∧ n.path = pre ++ [fs.name] ∧ W.1 = .done (some e)) := by
  intro W
  have hfrom := walk_from c env x pre fs
  have hsn : ∀ n re sk e, Ev.ask n re sk e ∈ W.2.log → sk = .none := by
    intro n re sk e hm
    obtain ⟨y, hy⟩ := hfrom _ hm
    have := hskip y n re
    rw [hy] at this; exact this
  obtain ⟨_, h2⟩ := walk_pruned c env x pre fs hsub hsort hread hdistinct
    (fun n re sk e hm => Or.inr (hsn n re sk e hm))
  obtain ⟨h3, h4⟩ := h2 (by
    intro n r hm
    obtain ⟨y, hy⟩ := hfrom _ hm
    rcases hcb y n with h | ⟨e, h, hs⟩
    · rw [← hy, h]; simp
    · rw [← hy, h]
      refine ⟨by simp, ?_⟩
      rintro e' he' ⟨g1, g2⟩
      simp at he'; subst he'
      simp [Err.isSentinel, g1, g2] at hs)
  rw [walk_reference c env0 x0 pre fs hsub hsort hread hdistinct hnil0 hskip0]
  refine ⟨?_, ?_⟩
  · rw [h3, declined_of_skipNone hsub hsn]; rfl
  · rcases h4 with h4 | ⟨n, e, hm, hd, hf⟩
    · exact Or.inl h4
    · refine Or.inr ⟨n, e, mem_calls.2 hm, ?_, hf⟩
      obtain ⟨it, hit, rfl⟩ := (walk_run c env x pre fs).invoke_mem ((mem_acts_iff rfl).2 hm)
      obtain ⟨p1, p2⟩ := items_path c _ [] pre 0 it hit
      rw [(prep_entry c fs).1] at p1
      exact (p1.eq_of_length (by simp; omega)).symm

/-- For any history (genuine errors and panics included) what is delivered is an initial part of that list. -/
theorem C08_skipDir_prefix (c : Nav) (env : Env σ) (x : σ) (env0 : Env τ) (x0 : τ) (pre : Path) (fs : FS)
    (hsub : c.sub ≠ .files) (hsort : SortPermutes c) (hread : ReadSelects c) (hdistinct : fs.Distinct)
    (hskip : SkipNone env) (hnil0 : AlwaysNil env0) (hskip0 : DefaultSkip env0) :
    let W := walk c env x pre fs
    invoked W.2.log <+: (invoked (walk c env0 x0 pre fs).2.log).filter
      (fun m => decide (∀ p ∈ refused W.2.log, ¬ Above p m.path)) := by
  intro W
  have hsn : ∀ n re sk e, Ev.ask n re sk e ∈ W.2.log → sk = .none := by
    intro n re sk e hm
    obtain ⟨y, hy⟩ := walk_from c env x pre fs _ hm
    have := hskip y n re
    rw [hy] at this; exact this
  obtain ⟨h1, _⟩ := walk_pruned c env x pre fs hsub hsort hread hdistinct
    (fun n re sk e hm => Or.inr (hsn n re sk e hm))
  rw [walk_reference c env0 x0 pre fs hsub hsort hread hdistinct hnil0 hskip0]
  rw [declined_of_skipNone hsub hsn] at h1
  exact h1

theorem Demo.onlySkips (p : Path) (e : Err) (he : e.isSentinel = true) :
    OnlySkips (Demo.env (Demo.at_ p (.ok (some e)))) := by
  intro x n
  simp only [Demo.env, Demo.at_]
  split
  · exact Or.inr ⟨e, rfl, he⟩
  · exact Or.inl rfl

example : (Demo.run .universal (Demo.at_ ["r", "a"] (.ok (some .skipDir)))) =
    (.done none, [(["r"], .ok none), (["r", "c"], .ok none), (["r", "c", "w"], .ok none),
      (["r", "a"], .ok (some .skipDir)), (["r", "g"], .ok none), (["r", "f"], .ok none)]) := by decide +kernel

/-- **C09 is false of the code**: after SkipAll for r/a the handler is called again, for all subscriptions
(`break` inside `switch` in travel, navigator-agent.go:191-195). -/
theorem C09_skipAll_does_not_end :
    (Demo.run .universal (Demo.at_ ["r", "a"] (.ok (some .skipAll)))).2.map Prod.fst =
      [["r"], ["r", "c"], ["r", "c", "w"], ["r", "a"], ["r", "g"], ["r", "f"]] ∧
    (Demo.run .directories (Demo.at_ ["r", "c"] (.ok (some .skipAll)))).2.map Prod.fst =
      [["r"], ["r", "c"], ["r", "a"], ["r", "a", "b"]] ∧
    (Demo.run .files (Demo.at_ ["r", "c", "w"] (.ok (some .skipAll)))).2.map Prod.fst =
      [["r", "c", "w"], ["r", "a", "b", "z"], ["r", "a", "b", "y"], ["r", "a", "x"], ["r", "g"], ["r", "f"]] := by
  decide +kernel

/-- **C09** (partial; the full claim "is never called again" fails, see `C09_skipAll_does_not_end`). What does
hold: SkipAll acts like SkipDir, so nothing below the node follows, and nothing at all if it was the root.
Missing: the calls for nodes outside the subtree. -/
theorem C09_skipAll_partial (c : Nav) (env : Env σ) (x : σ) (pre : Path) (fs : FS)
    (hsub : c.sub ≠ .files) (hsort : SortPermutes c) (hread : ReadSelects c) (hdistinct : fs.Distinct)
    (hskip : SkipNone env) (n : Node) (e : Err) (_he : e.isSkipAll = true)
    (hcall : (n, .ok (some e)) ∈ calls (walk c env x pre fs).2.log) :
    (∀ m ∈ invoked (walk c env x pre fs).2.log, ¬ Above n.path m.path) ∧
    (n.path = pre ++ [fs.name] → invoked (walk c env x pre fs).2.log = [n]) := by
  have hpre := C08_skipDir_prefix c env x (Demo.env Demo.quiet) () pre fs hsub hsort hread hdistinct hskip
    (fun _ _ => rfl) (fun _ _ _ => rfl)
  have h1 : ∀ m ∈ invoked (walk c env x pre fs).2.log, ¬ Above n.path m.path := by
    intro m hm
    have := (List.mem_filter.1 (hpre.subset hm)).2
    simp only [decide_eq_true_eq] at this
    exact this n.path (refused_mem.2 ⟨n, e, mem_calls.1 hcall, rfl⟩)
  refine ⟨h1, fun hroot => ?_⟩
  have hmem : n ∈ invoked (walk c env x pre fs).2.log := List.mem_map.2 ⟨_, hcall, rfl⟩
  have hpw := (C02_preorder c env x pre fs hsort hread hdistinct).1
  have hall : ∀ m ∈ invoked (walk c env x pre fs).2.log, m.path = n.path := by
    intro m hm
    have hsubl := (walk_run c env x pre fs).sublist
    rw [invoked_acts] at hsubl
    obtain ⟨it, hit, rfl⟩ := List.mem_map.1 (hsubl.subset hm)
    have p1 := (items_path c _ [] pre 0 it hit).1
    rw [(prep_entry c fs).1, ← hroot] at p1
    have := h1 _ hm
    simp only [Above, not_and, ne_eq, Classical.not_not] at this
    exact (this p1).symm
  cases hL : invoked (walk c env x pre fs).2.log with
  | nil => rw [hL] at hmem; simp at hmem
  | cons a l =>
    rw [hL] at hall hpw hmem
    have hl : l = [] := by
      cases l with
      | nil => rfl
      | cons b l =>
        rw [List.pairwise_cons] at hpw
        exfalso
        refine hpw.1 b (by simp) ?_
        rw [hall a (by simp), hall b (by simp)]
        exact List.prefix_refl _
    subst hl
    simp at hmem
    rw [hmem]

/-- **C10 is false of the code** in both halves: with the Files subscription SkipDir for r/c/w ends the whole
traversal (and is returned by Navigate), while SkipAll (witnessed in C09) only leaves that directory. -/
theorem C10_files_skipDir_ends : Demo.run .files (Demo.at_ ["r", "c", "w"] (.ok (some .skipDir))) =
    (.done (some .skipDir), [(["r", "c", "w"], .ok (some .skipDir))]) := by decide +kernel

/-- **C10** (partial). What does hold: (1) after SkipDir nothing else is delivered — in particular nothing else of
that directory — and Navigate returns the sentinel; (2) a handler that answers nil or SkipAll is shown exactly
the files an accepting handler is shown, minus those that come later in the directory of a file for which it
answered SkipAll. Missing: SkipDir should go on elsewhere, SkipAll should end the traversal. -/
theorem C10_files_skip_partial (c : Nav) (env : Env σ) (x : σ) (env0 : Env τ) (x0 : τ) (pre : Path) (fs : FS)
    (hsub : c.sub = .files) (hsort : SortPermutes c) (hread : c.read = defaultRead) (hdistinct : fs.Distinct)
    (hskip : DefaultSkip env) (hnil0 : AlwaysNil env0) (hskip0 : DefaultSkip env0) :
    let W := walk c env x pre fs
    let all := invoked (walk c env0 x0 pre fs).2.log
    (∀ n e, (n, .ok (some e)) ∈ calls W.2.log → e.isSkipDir = true →
      W.1 = .done (some e) ∧ ∃ before, calls W.2.log = before ++ [(n, .ok (some e))]) ∧
    ((∀ n r, (n, r) ∈ calls W.2.log → r = .ok none ∨
        ∃ e, r = .ok (some e) ∧ e.isSkipAll = true ∧ e.isSkipDir = false) →
      invoked W.2.log = all.filter (fun m => decide (¬ leftOut (all.map fun k => k.path) (refused W.2.log) m.path))) := by
  intro W all
  have hsel := defaultRead_selects c hread
  have hrun := walk_run c env x pre fs
  have hdis := prep_distinct c hsort hsel fs hdistinct
  have hwf := prep_wf c hsort hsel fs
  have hfrom := walk_from c env x pre fs
  refine ⟨?_, ?_⟩
  · intro n e hm he
    have hm' := (mem_acts_iff rfl).2 (mem_calls.1 hm)
    suffices h : ∀ {d0 l evs f}, Run .files d0 l evs f → Ev.invoke n (.ok (some e)) ∈ evs →
        f = .done (some e) ∧ ∃ es, evs = es ++ [.invoke n (.ok (some e))] by
      rw [hsub] at hrun
      obtain ⟨h1, es, h2⟩ := h hrun hm'
      refine ⟨h1, calls es, ?_⟩
      rw [← calls_acts, h2]; simp [calls]
    intro d0 l evs f hr
    have key : ∀ {it : Item} {evs a}, Step .files it evs a → Ev.invoke n (.ok (some e)) ∈ evs →
        a = .done (.ret false (some e)) ∧ evs = [.invoke n (.ok (some e))] := by
      intro it evs a hs hm
      cases hs with
      | panicked => simp at hm
      | file e' h hn => simp at hm; obtain ⟨rfl, rfl⟩ := hm; exact ⟨rfl, rfl⟩
      | failed e' h => exact absurd rfl h
      | asked sk e h => exact absurd rfl h
      | askedOnly => simp at hm
    induction hr with
    | nil => intro h; simp at h
    | travel hs hr ih =>
      intro hm
      rcases List.mem_append.1 hm with h | h
      · cases (key hs h).1
      · obtain ⟨h1, es, h2⟩ := ih h; exact ⟨h1, _ ++ es, by rw [h2, List.append_assoc]⟩
    | root hs hd =>
      intro hm; obtain ⟨h1, h2⟩ := key hs hm; cases h1; exact ⟨rfl, [], by simp [h2]⟩
    | next hs hd hee hr ih =>
      intro hm
      rcases List.mem_append.1 hm with h | h
      · cases (key hs h).1
        rcases hee with h | ⟨h, _⟩ <;> cases h
      · obtain ⟨h1, es, h2⟩ := ih h; exact ⟨h1, _ ++ es, by rw [h2, List.append_assoc]⟩
    | leave hs hd hed hea hr ih =>
      intro hm
      rcases List.mem_append.1 hm with h | h
      · cases (key hs h).1; rw [he] at hed; cases hed
      · obtain ⟨h1, es, h2⟩ := ih h; exact ⟨h1, _ ++ es, by rw [h2, List.append_assoc]⟩
    | leaveTop hs hd hed hea =>
      intro hm; cases (key hs hm).1; rw [he] at hed; cases hed
    | stop hs hd hst =>
      intro hm; obtain ⟨h1, h2⟩ := key hs hm; cases h1; exact ⟨rfl, [], by simp [h2]⟩
    | crash hs hd hp =>
      intro hm
      rcases List.mem_append.1 hm with h | h
      · cases (key hs h).1
      · simp at h
  · intro hcb
    rw [hsub] at hrun
    obtain ⟨h1, _⟩ := hrun.files_skip c _ hdis hwf [] pre 0 (items0_shut c hsort hread fs hdistinct [] pre 0) [] rfl
      (by
        intro n r hm
        exact hcb n r (mem_calls.2 (mem_acts hm)))
      (by
        intro n re sk e hm
        obtain ⟨y, hy⟩ := hfrom _ (mem_acts hm)
        rw [hskip y n re] at hy
        simp at hy; exact ⟨hy.1.symm, hy.2.symm⟩)
    rw [invoked_acts, refused_acts] at h1
    have hall : all = ((items c [] pre 0 (prep c fs)).map (·.node)).filter (fun n => !n.isDir) := by
      have := (walk_accepting c env0 x0 pre fs hsort hsel hnil0 hskip0 hdistinct (fun _ => hread)).1
      exact this.trans (by simp [hsub])
    rw [h1, ← hall]
    apply List.filter_congr
    intro m hm
    refine decide_eq_decide.2 (not_congr ?_)
    -- refused paths and `m` are files, so order among all items is order among files
    have hmf : m.isDir = false := by
      rw [hall] at hm; simpa using (List.mem_filter.1 hm).2
    have hsubl : (all.map fun k => k.path).Sublist ((items c [] pre 0 (prep c fs)).map (·.node.path)) := by
      rw [hall]
      have : ((items c [] pre 0 (prep c fs)).map (·.node.path)) = ((items c [] pre 0 (prep c fs)).map (·.node)).map (fun k => k.path) := by
        rw [List.map_map]; rfl
      rw [this]
      exact List.filter_sublist.map _
    constructor
    · rintro ⟨p, hp, hs, hd⟩
      refine ⟨p, hp, ?_, hd⟩
      obtain ⟨n, e, hm', rfl⟩ := refused_mem.1 hp
      have hnf : n ∈ all := by
        rw [hall]
        have hmi : n ∈ invoked (acts (walk c env x pre fs).2.log) :=
          List.mem_map.2 ⟨_, mem_calls.2 ((mem_acts_iff rfl).2 hm'), rfl⟩
        rw [invoked_acts, h1] at hmi
        exact (List.mem_filter.1 hmi).1
      -- both are in `all`
      have hnd := (items_preOrder c _ hdis [] pre 0).nodup
      obtain ⟨l', hl', he'⟩ := List.sublist_map_iff.1 hs
      rcases l' with _ | ⟨i, _ | ⟨j, _ | ⟨k, ks⟩⟩⟩
      · simp at he'
      · simp at he'
      · simp at he'
        obtain ⟨e1, e2⟩ := he'
        have hni : ∃ i' ∈ items c [] pre 0 (prep c fs), i'.node = n := by
          rw [hall] at hnf
          obtain ⟨i', hi', h⟩ := List.mem_map.1 (List.mem_filter.1 hnf).1
          exact ⟨i', hi', h⟩
        obtain ⟨i', hi', rfl⟩ := hni
        have hmi : ∃ j' ∈ items c [] pre 0 (prep c fs), j'.node = m := by
          rw [hall] at hm
          obtain ⟨j', hj', h⟩ := List.mem_map.1 (List.mem_filter.1 hm).1
          exact ⟨j', hj', h⟩
        obtain ⟨j', hj', rfl⟩ := hmi
        have ei : i' = i := nodup_map_inj hnd hi' (hl'.subset (by simp)) e1
        have ej : j' = j := nodup_map_inj hnd hj' (hl'.subset (by simp)) e2
        subst ei ej
        have hnf' : i'.node.isDir = false := by
          rw [hall] at hnf; simpa using (List.mem_filter.1 hnf).2
        have h3 : [i'.node, j'.node].Sublist ((items c [] pre 0 (prep c fs)).map (·.node)) := hl'.map _
        have h4 := h3.filter (fun n => !n.isDir)
        rw [← hall] at h4
        simp only [List.filter_cons, hnf', hmf, Bool.not_false, if_true, List.filter_nil] at h4
        exact h4.map (fun k => k.path)
      · simp at he'
    · rintro ⟨p, hp, hs, hd⟩
      exact ⟨p, hp, hs.trans hsubl, hd⟩

/-- **C11** A genuine error stops the traversal and is returned verbatim; all earlier calls were answered by nil or a skip
sentinel (`Reply.Mild`). -/
theorem C11_genuine_error (c : Nav) (env : Env σ) (x : σ) (pre : Path) (fs : FS) (n : Node) (e : Err)
    (hcall : (n, .ok (some e)) ∈ calls (walk c env x pre fs).2.log) (hgen : Genuine e) :
    (walk c env x pre fs).1 = .done (some e) ∧
    ∃ before, calls (walk c env x pre fs).2.log = before ++ [(n, .ok (some e))] ∧ ∀ k ∈ before, k.2.Mild := by
  obtain ⟨h1, es, h2, h3⟩ := (walk_run c env x pre fs).genuine ((mem_acts_iff rfl).2 (mem_calls.1 hcall)) hgen
  refine ⟨h1, calls es, ?_, ?_⟩
  · rw [← calls_acts, h2]; simp [calls]
  · intro k hk
    exact h3 k.1 k.2 (mem_calls.1 hk)

example : (Demo.run .universal (Demo.at_ ["r", "a", "b"] (.ok (some (.code 7))))) =
    (.done (some (.code 7)), [(["r"], .ok none), (["r", "c"], .ok none), (["r", "c", "w"], .ok none),
      (["r", "a"], .ok none), (["r", "a", "b"], .ok (some (.code 7)))]) := by decide +kernel

/-- **C17 is false of the code at the root**: a panic of the handler for the root passes through Navigate. -/
theorem C17_root_panic_escapes : Demo.run .universal (Demo.at_ ["r"] .panic) = (.panic, [(["r"], .panic)]) := by
  decide +kernel

/-- **C17** (partial: everywhere except at the root, see `C17_root_panic_escapes`). The panicking call is the last
handler call, the panic handler is consulted exactly once, right after it, and Navigate returns normally the
error made from the panic handler's answer. -/
theorem C17_panic_rescued_partial (c : Nav) (env : Env σ) (x : σ) (pre : Path) (fs : FS) (n : Node)
    (hcall : (n, .panic) ∈ calls (walk c env x pre fs).2.log) (hroot : n.path ≠ pre ++ [fs.name]) :
    ∃ before cur r, acts (walk c env x pre fs).2.log = before ++ [.invoke n .panic, .rescue cur (n.depth - 1) r] ∧
      (∀ m d r, Ev.rescue m d r ∉ before) ∧ (∀ m, Ev.invoke m .panic ∉ before) ∧ n.parent = some cur ∧
      (walk c env x pre fs).1 = .done (some r.err) := by
  have hrun := walk_run c env x pre fs
  have hm := (mem_acts_iff (l := (walk c env x pre fs).2.log) (ev := .invoke n .panic) rfl).2 (mem_calls.1 hcall)
  have hdep : ∀ it ∈ items c [] pre 0 (prep c fs), (0 : Int) ≤ it.node.depth := by
    intro it hit
    obtain ⟨p1, p2⟩ := items_path c _ [] pre 0 it hit
    have := p1.length_le
    simp at this; omega
  rcases hrun.panicked hm hdep with ⟨hd, _⟩ | ⟨hd, cur, r, es, hp, hf, he⟩
  · exfalso
    obtain ⟨it, hit, rfl⟩ := hrun.invoke_mem hm
    obtain ⟨p1, p2⟩ := items_path c _ [] pre 0 it hit
    rw [(prep_entry c fs).1] at p1
    exact hroot (p1.eq_of_length (by simp; omega)).symm
  · refine ⟨es, cur, r, he, ?_, ?_, hp, hf⟩
    · intro m d r' hmem
      exact hrun.clean_before he _ hmem
    · intro m hmem
      exact hrun.clean_before he _ hmem

/-- No fault was hidden: the negation of the conclusion of C11/C17. -/
example : (Demo.run .universal (Demo.at_ ["r", "a", "b"] .panic)) =
    (.done (some (.saved "dest")), [(["r"], .ok none), (["r", "c"], .ok none), (["r", "c", "w"], .ok none),
      (["r", "a"], .ok none), (["r", "a", "b"], .panic)]) := by decide +kernel

/-- **C14** When the root cannot be stat'ed the fault handler is consulted exactly once with the path and the
error, its answer is what Navigate returns, and nothing else happens (no call is made, no state but the fault
handler's changes); by default the original error is returned. -/
theorem C14_root_stat (c : Nav) (env : Env σ) (fault : σ → Path → Err → σ × Option Err) (pre treePath : Path) (e : Err)
    (s : St σ) :
    (top c env fault pre treePath (.error e) s).1 = .done (fault s.ext treePath e).2 ∧
    (top c env fault pre treePath (.error e) s).2.log = s.log ∧
    (top c env fault pre treePath (.error e) s).2.depth = s.depth ∧
    (top c env fault pre treePath (.error e) s).2.ext = (fault s.ext treePath e).1 := ⟨rfl, rfl, rfl, rfl⟩

/-- With the default fault handler (pref/defaults.go:85-87). -/
theorem C14_root_stat_default (c : Nav) (env : Env σ) (pre treePath : Path) (e : Err) (s : St σ) :
    (top c env (fun x _ e => (x, some e)) pre treePath (.error e) s).1 = .done (some e) := rfl

/-- **C12** A nil error means nothing failed: the root was found or the fault handler swallowed the failure; no
handler call returned a genuine error; no handler call panicked. -/
theorem C12_nil_means_ok (c : Nav) (env : Env σ) (fault : σ → Path → Err → σ × Option Err) (pre treePath : Path)
    (r : RootStat) (x : σ) (hr : ∀ t, r = .found t → ∃ fs, t = prep c fs)
    (hnil : (top c env fault pre treePath r (St.fresh x)).1 = .done none) :
    (match r with
      | .error e => (fault x treePath e).2 = none
      | .found _ => True) ∧
    ∀ n rep, (n, rep) ∈ calls (top c env fault pre treePath r (St.fresh x)).2.log →
      rep ≠ .panic ∧ ∀ e, rep = .ok (some e) → ¬ Genuine e := by
  cases r with
  | error e =>
    refine ⟨?_, ?_⟩
    · simpa [top, St.fresh] using hnil
    · intro n rep hm; simp [top, St.fresh, calls] at hm
  | found t =>
    obtain ⟨fs, rfl⟩ := hr t rfl
    refine ⟨trivial, ?_⟩
    have hw : top c env fault pre treePath (.found (prep c fs)) (St.fresh x) = walk c env x pre fs := rfl
    rw [hw] at hnil ⊢
    intro n rep hm
    refine ⟨?_, ?_⟩
    · rintro rfl
      have hrun := walk_run c env x pre fs
      have hm' := (mem_acts_iff (l := (walk c env x pre fs).2.log) (ev := .invoke n .panic) rfl).2 (mem_calls.1 hm)
      rcases hrun.panicked hm' (by
        intro it hit
        obtain ⟨p1, p2⟩ := items_path c _ [] pre 0 it hit
        have := p1.length_le
        simp at this; omega) with ⟨_, h, _⟩ | ⟨_, _, r, _, _, h, _⟩
      · rw [hnil] at h; cases h
      · rw [hnil] at h; cases h
    · rintro e rfl hg
      have := (C11_genuine_error c env x pre fs n e hm hg).1
      rw [hnil] at this; cases this

/-- A history with skip sentinels inside that ends with nil. -/
example : (top (Demo.nav .universal) (Demo.env (Demo.at_ ["r", "a"] (.ok (some .skipDir)))) (fun x _ e => (x, some e))
    [] ["r"] (.found (prep (Demo.nav .universal) Demo.fs)) (St.fresh ())).1 = .done none := by decide +kernel

/-- The directories the skip handler asked to skip. -/
def skippedDirs (l : List Ev) : List Path :=
  l.filterMap fun | .ask n _ sk _ => if sk = .none then none else some n.path | _ => none

/-- **C16 is false of the code** in two respects: SkipAll does not end the traversal (it prunes like SkipDir), and
the Directories navigator ignores SkipDir (navigator-directories.go:39-46). -/
def Demo.envAsk (p : Path) (sk : Skip) : Env Unit :=
  { Demo.env Demo.quiet with ask := fun x n _ => (x, if n.path = p then sk else .none, none) }

theorem C16_skipAll_does_not_end :
    (invoked (walk (Demo.nav .universal) (Demo.envAsk ["r", "c"] .all) () [] Demo.fs).2.log).map (fun n => n.path) =
      [["r"], ["r", "c"], ["r", "a"], ["r", "a", "b"], ["r", "a", "b", "z"], ["r", "a", "b", "y"], ["r", "a", "x"],
        ["r", "g"], ["r", "f"]] := by decide +kernel

theorem C16_directories_ignore_skipDir :
    (invoked (walk (Demo.nav .directories) (Demo.envAsk ["r", "a"] .dir) () [] Demo.fs).2.log).map (fun n => n.path) =
      [["r"], ["r", "c"], ["r", "a"], ["r", "a", "b"]] := by decide +kernel

/-- **C16** (partial). For the Universal subscription: whatever a skip handler answers (with nil errors), an
accepting handler is shown exactly what it would be shown without skipping, minus what lies below the directories
for which the answer was SkipDir or SkipAll, and Navigate returns nil; with only SkipNone answers nothing
changes. Missing: SkipAll should end the traversal; Directories ignore SkipDir. -/
theorem C16_skip_handler_partial (c : Nav) (env : Env σ) (x : σ) (env0 : Env τ) (x0 : τ) (pre : Path) (fs : FS)
    (hsub : c.sub = .universal) (hsort : SortPermutes c) (hread : ReadSelects c) (hdistinct : fs.Distinct)
    (hnil : AlwaysNil env) (hask : ∀ y n re, (env.ask y n re).2.2 = none)
    (hnil0 : AlwaysNil env0) (hskip0 : DefaultSkip env0) :
    let W := walk c env x pre fs
    let all := invoked (walk c env0 x0 pre fs).2.log
    invoked W.2.log = all.filter (fun m => decide (∀ p ∈ skippedDirs W.2.log, ¬ Above p m.path)) ∧
    W.1 = .done none ∧ (SkipNone env → invoked W.2.log = all) := by
  intro W all
  have hns : c.sub ≠ .files := by simp [hsub]
  have hfrom := walk_from c env x pre fs
  obtain ⟨_, h2⟩ := walk_pruned c env x pre fs hns hsort hread hdistinct (by
    intro n re sk e hm
    obtain ⟨y, hy⟩ := hfrom _ hm
    have := hask y n re
    rw [hy] at this; exact Or.inl this)
  have hinv : ∀ n r, Ev.invoke n r ∈ W.2.log → r = .ok none := by
    intro n r hm
    obtain ⟨y, hy⟩ := hfrom _ hm
    rw [← hy]; exact hnil y n
  obtain ⟨h3, h4⟩ := h2 (by
    intro n r hm
    rw [hinv n r hm]; simp)
  have hdec : declined c.sub W.2.log = skippedDirs W.2.log := by
    generalize W.2.log = l at hinv
    induction l with
    | nil => rfl
    | cons ev l ih =>
      have ih := ih (fun n r hm => hinv n r (by simp [hm]))
      simp only [declined, skippedDirs] at ih ⊢
      cases ev with
      | ask n re sk e =>
        have hv : (if verdict c.sub re sk e = Act.travel then none else some n.path) =
            (if sk = .none then none else some n.path) := by
          rw [hsub]; cases sk <;> simp [verdict]
        simp only [List.filterMap_cons, hv]
        rw [ih]
      | invoke n r =>
        have := hinv n r (by simp)
        subst this
        simpa [List.filterMap_cons] using ih
      | _ => simpa [List.filterMap_cons] using ih
  have hall : all = (items c [] pre 0 (prep c fs)).map (·.node) :=
    walk_reference c env0 x0 pre fs hns hsort hread hdistinct hnil0 hskip0
  have hmain : invoked W.2.log = all.filter (fun m => decide (∀ p ∈ skippedDirs W.2.log, ¬ Above p m.path)) := by
    rw [h3, hdec, hall]; rfl
  refine ⟨hmain, ?_, ?_⟩
  · rcases h4 with h4 | ⟨n, e, hm, _⟩
    · exact h4
    · have := hinv _ _ hm; simp at this
  · intro hsn
    have hnil' : skippedDirs W.2.log = [] := by
      rw [skippedDirs, List.filterMap_eq_nil_iff]
      intro ev hev
      cases ev with
      | ask n re sk e =>
        obtain ⟨y, hy⟩ := hfrom _ hev
        have := hsn y n re
        rw [hy] at this
        simp at this
        simp [this]
      | _ => rfl
    rw [hmain, hnil']
    exact List.filter_eq_self.2 (by simp)

end Traverse
