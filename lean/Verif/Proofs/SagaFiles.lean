import Verif.Proofs.Saga
/-
Sessions of the subscription Files whose handler accepts every file or panics.
-/
namespace Traverse
variable {κ σ : Type}

/-- The files among nodes. -/
def onlyFiles (l : List Node) : List Node := l.filter (fun n => !n.isDir)

/-- Nothing below `it` is listed behind it if nothing below it is listed at all. -/
theorem PreOrder.leaf {it : Item} {rest : List Item} (hp : PreOrder (it :: rest))
    (hl : ∀ j ∈ rest, ¬ Above it.node.path j.node.path) : rest.dropWhile (fun j => decide (it.node.depth < j.node.depth)) = rest := by
  cases rest with
  | nil => rfl
  | cons j js =>
    rw [List.dropWhile_cons]
    split
    · rename_i h
      exact absurd (hp.1 j (by rw [List.takeWhile_cons, if_pos h]; simp)) (hl j (by simp))
    · rfl

/-- What a Files session makes of one node when the handler answers nil or panics and the skip handler is the default one. -/
theorem step_filesHeld {it : Item} {evs : List Ev} {a : Act} (hs : Step .files it evs a)
    (hans : ∀ n r, Ev.invoke n r ∈ evs → r = .ok none ∨ r = .panic) (hask : ∀ n re sk e, Ev.ask n re sk e ∈ evs → sk = .none ∧ e = none) :
    (a = .travel ∧ invoked evs = onlyFiles [it.node] ∧ ∀ n, Ev.invoke n .panic ∉ evs) ∨
    ((∃ p, a = .done (.ret p none)) ∧ invoked evs = onlyFiles [it.node] ∧ (∀ n, Ev.invoke n .panic ∉ evs) ∧
      (it.node.isDir = false ∨ it.node.isDir = true ∧ it.readErr ≠ none)) ∨
    (a = .done .panic ∧ invoked evs = onlyFiles [it.node] ∧ Ev.invoke it.node .panic ∈ evs ∧ it.node.isDir = false) := by
  have hinv : invoked evs = onlyFiles [it.node] := by
    rw [hs.invoked]
    cases h : it.node.isDir <;> simp [onlyFiles, h]
  cases hs with
  | panicked h => exact Or.inr (Or.inr ⟨rfl, hinv, by simp, h rfl⟩)
  | file e h hn =>
    rcases hans it.node (.ok e) (by simp) with he | he
    · cases he
      exact Or.inr (Or.inl ⟨⟨false, rfl⟩, hinv, by simp, Or.inl hn⟩)
    · cases he
  | failed e h => exact absurd rfl h
  | asked sk e h => exact absurd rfl h
  | askedOnly sk e h hn =>
    obtain ⟨rfl, rfl⟩ := hask it.node it.readErr sk e (by simp)
    cases hre : it.readErr with
    | none => rw [hre] at hinv; exact Or.inl ⟨by simp [verdict], hinv, by simp⟩
    | some x => rw [hre] at hinv; exact Or.inr (Or.inl ⟨⟨true, by simp [verdict]⟩, hinv, by simp, Or.inr ⟨hn, by simp⟩⟩)

theorem Run.filesHeld {d0 : Int} {l : List Item} {evs : List Ev} {f : Final} (hr : Run .files d0 l evs f) (hpre : PreOrder l)
    (hroot : ∀ it ∈ l, it.node.depth = d0 → ∀ it' ∈ l, it.node.path <+: it'.node.path)
    (hleaf : ∀ it ∈ l, (it.node.isDir = false ∨ it.node.isDir = true ∧ it.readErr ≠ none) → ∀ it' ∈ l, ¬ Above it.node.path it'.node.path)
    (hans : ∀ n r, Ev.invoke n r ∈ evs → r = .ok none ∨ r = .panic) (hask : ∀ n re sk e, Ev.ask n re sk e ∈ evs → sk = .none ∧ e = none) :
    invoked evs <+: onlyFiles (l.map (·.node)) ∧
    ((∀ n, Ev.invoke n .panic ∉ evs) → invoked evs = onlyFiles (l.map (·.node)) ∧ f = .done none) := by
  have app : ∀ a b : List Ev, invoked (a ++ b) = invoked a ++ invoked b := by intro a b; simp [invoked, calls]
  have fcons : ∀ (it : Item) (rest : List Item), onlyFiles ((it :: rest).map (·.node)) = onlyFiles [it.node] ++ onlyFiles (rest.map (·.node)) := by
    intro it rest
    simp only [onlyFiles, List.map_cons]
    rw [← List.filter_append]; rfl
  induction hr with
  | nil => exact ⟨List.nil_prefix, fun _ => ⟨rfl, rfl⟩⟩
  | @travel it rest evs es f hs hr ih =>
    have ih := ih hpre.2.2 (fun i hi hd i' hi' => hroot i (by simp [hi]) hd i' (by simp [hi']))
      (fun i hi hd i' hi' => hleaf i (by simp [hi]) hd i' (by simp [hi']))
      (fun n r h => hans n r (by simp [h])) (fun n re sk e h => hask n re sk e (by simp [h]))
    rcases step_filesHeld hs (fun n r h => hans n r (by simp [h])) (fun n re sk e h => hask n re sk e (by simp [h])) with ⟨-, h2, h3⟩ | ⟨⟨p, h⟩, -⟩ | ⟨h, -⟩
    · rw [app, fcons, h2]
      refine ⟨(List.prefix_append_right_inj _).2 ih.1, fun hn => ?_⟩
      obtain ⟨g1, g2⟩ := ih.2 (fun n h => hn n (by simp [h]))
      exact ⟨by rw [g1], g2⟩
    · cases h
    · cases h
  | @root it rest evs o hs hd =>
    have hc := step_filesHeld hs hans hask
    have hrest : (it.node.isDir = false ∨ it.node.isDir = true ∧ it.readErr ≠ none) → rest = [] := by
      intro hl
      cases rest with
      | nil => rfl
      | cons j js =>
        have h1 := hroot it (by simp) hd j (by simp)
        have h2 := hpre.pairwise
        rw [List.pairwise_cons] at h2
        exact (hleaf it (by simp) hl j (by simp) ⟨h1, fun he => h2.1 j (by simp) (by rw [he]; exact List.prefix_rfl)⟩).elim
    rcases hc with ⟨h, -⟩ | ⟨⟨p, h⟩, h2, h3, h4⟩ | ⟨h, h2, h3, h4⟩
    · cases h
    · cases h
      rw [hrest h4, h2]
      exact ⟨List.prefix_rfl, fun _ => ⟨rfl, rfl⟩⟩
    · rw [hrest (Or.inl h4), h2]
      exact ⟨List.prefix_rfl, fun hn => absurd h3 (hn _)⟩
  | @next it rest evs p e es f hs hd hn hr ih =>
    rcases step_filesHeld hs (fun n r h => hans n r (by simp [h])) (fun n re sk e h => hask n re sk e (by simp [h])) with ⟨h, -⟩ | ⟨⟨p', h⟩, h2, h3, h4⟩ | ⟨h, -⟩
    · cases h
    · have hdw := hpre.leaf (fun j hj => hleaf it (by simp) h4 j (by simp [hj]))
      rw [hdw] at ih
      have ih := ih hpre.2.2 (fun i hi hd i' hi' => hroot i (by simp [hi]) hd i' (by simp [hi']))
        (fun i hi hd i' hi' => hleaf i (by simp [hi]) hd i' (by simp [hi']))
        (fun n r h => hans n r (by simp [h])) (fun n re sk e h => hask n re sk e (by simp [h]))
      rw [app, fcons, h2]
      refine ⟨(List.prefix_append_right_inj _).2 ih.1, fun hn => ?_⟩
      obtain ⟨g1, g2⟩ := ih.2 (fun n h => hn n (by simp [h]))
      exact ⟨by rw [g1], g2⟩
    · cases h
  | @leave it rest evs e es f hs hd he ha hr ih =>
    rcases step_filesHeld hs (fun n r h => hans n r (by simp [h])) (fun n re sk e h => hask n re sk e (by simp [h])) with ⟨h, -⟩ | ⟨⟨p', h⟩, -⟩ | ⟨h, -⟩ <;> cases h
  | @leaveTop it rest evs e hs hd he ha =>
    rcases step_filesHeld hs hans hask with ⟨h, -⟩ | ⟨⟨p', h⟩, -⟩ | ⟨h, -⟩ <;> cases h
  | @stop it rest evs p e hs hd he =>
    rcases step_filesHeld hs hans hask with ⟨h, -⟩ | ⟨⟨p', h⟩, -⟩ | ⟨h, -⟩ <;> cases h
  | @crash it rest evs cur r hs hd hp =>
    rcases step_filesHeld hs (fun n r h => hans n r (by simp [h])) (fun n re sk e h => hask n re sk e (by simp [h])) with ⟨h, -⟩ | ⟨⟨p', h⟩, -⟩ | ⟨h, h2, h3, -⟩
    · cases h
    · cases h
    · rw [app, fcons, h2]
      refine ⟨(List.prefix_append_right_inj _).2 (by simp [invoked, calls]), fun hn => absurd (List.mem_append_left _ h3) (hn _)⟩

theorem walk_files_holding (c : Nav) (env : Env σ) (x : σ) (pre : Path) (fs : FS) (hsub : c.sub = .files)
    (hsort : SortPermutes c) (hread : c.read = defaultRead) (hdistinct : fs.Distinct) (hskip : DefaultSkip env)
    (hinv : ∀ y n, (env.invoke y n).2 = .ok none ∨ (env.invoke y n).2 = .panic) :
    let W := walk c env x pre fs
    let all := onlyFiles ((items c [] pre 0 (prep c fs)).map (·.node))
    invoked W.2.log <+: all ∧ (∀ a ∈ calls W.2.log, a.2 = .ok none ∨ a.2 = .panic) ∧
    ((∀ y n, (env.invoke y n).2 = .ok none) → ∀ a ∈ calls W.2.log, a.2 = .ok none) ∧
    ((∀ n, (n, .panic) ∉ calls W.2.log) → invoked W.2.log = all ∧ W.1 = .done none) := by
  intro W all
  have hfrom := walk_from c env x pre fs
  have hans : ∀ n r, Ev.invoke n r ∈ W.2.log → r = .ok none ∨ r = .panic := by
    intro n r hm
    obtain ⟨y, hy⟩ := hfrom _ hm
    have := hinv y n
    rw [hy] at this; exact this
  have hask : ∀ n re sk e, Ev.ask n re sk e ∈ W.2.log → sk = .none ∧ e = none := by
    intro n re sk e hm
    obtain ⟨y, hy⟩ := hfrom _ hm
    have := hskip y n re
    rw [hy] at this
    exact ⟨congrArg Prod.fst this, congrArg Prod.snd this⟩
  have hsel := defaultRead_selects c hread
  have hd := prep_distinct c hsort hsel fs hdistinct
  have hr := walk_run c env x pre fs
  rw [hsub] at hr
  obtain ⟨h1, h2⟩ := hr.filesHeld (items_preOrder c _ hd [] pre 0) (items_root c _ [] pre 0)
    (fun it hit hl it' hit' => by
      rcases hl with hl | ⟨hl, hl'⟩
      · exact items_leaf c _ (prep_wf c hsort hsel fs) hd [] pre 0 it hit hl it' hit'
      · exact items0_shut c hsort hread fs hdistinct [] pre 0 it hit hl hl' it' hit')
    (fun n r hm => hans n r (mem_acts hm)) (fun n re sk e hm => hask n re sk e (mem_acts hm))
  rw [invoked_acts] at h1 h2
  refine ⟨h1, ?_, ?_, fun hn => ?_⟩
  · rintro ⟨n, r⟩ hm
    exact hans n r (mem_calls.1 hm)
  · rintro hnil ⟨n, r⟩ hm
    obtain ⟨y, hy⟩ := hfrom _ (mem_calls.1 hm)
    have := hnil y n
    rw [hy] at this; exact this
  · exact h2 (fun n hm => hn n (mem_calls.2 (mem_acts hm)))

theorem session_files_episode {S : Setup} (hb : S.Bare) (C : Client κ) (x : κ) (carried : Metrics) (target pre : Path) (fs : FS)
    (hsub : S.nav.sub = .files) (hsort : SortPermutes S.nav) (hread : S.nav.read = defaultRead) (hdistinct : fs.Distinct)
    (hskip : ∀ k n re, (C.skip k n re).2 = (.none, none)) (hh : Handler.Holds C.handler) :
    let R := S.session C x carried target pre fs
    let all := onlyFiles ((items S.nav [] pre 0 (prep S.nav fs)).map (·.node))
    let answers := R.2.ext.hits.map (fun h => (h.parcel.node, h.reply))
    answers = calls R.2.log ∧ answers.map Prod.fst <+: all ∧ (∀ a ∈ answers, a.2 = .ok none ∨ a.2 = .panic) ∧
    (Handler.Nil C.handler → ∀ a ∈ answers, a.2 = .ok none) ∧
    ((∀ n, (n, .panic) ∉ answers) → answers.map Prod.fst = all ∧ R.1 = .done none) := by
  intro R all answers
  obtain ⟨b1, b2, b3⟩ := bare_session hb C x carried target pre fs
  have hbh := bare_hits S C x carried (pre ++ [fs.name]) pre fs
  have ha : answers = calls R.2.log := by
    show R.2.ext.hits.map _ = _
    rw [b3.hits, show R.2.log = _ from b2]; exact hbh
  obtain ⟨w1, w2, w2', w3⟩ := walk_files_holding S.nav (bareEnv S C (pre ++ [fs.name])) (S.world x carried) pre fs hsub hsort hread hdistinct
    (fun y n re => hskip y.client n re) (fun y n => hh y.client _)
  have hl : calls R.2.log = calls (walk S.nav (bareEnv S C (pre ++ [fs.name])) (S.world x carried) pre fs).2.log := congrArg calls b2
  refine ⟨ha, ?_, ?_, fun hnil => ?_, ?_⟩
  · rw [ha, hl]; exact w1
  · rw [ha, hl]; exact w2
  · rw [ha, hl]; exact w2' (fun y n => hnil y.client _)
  · rw [ha, hl, show R.1 = _ from b1]; exact w3

end Traverse
