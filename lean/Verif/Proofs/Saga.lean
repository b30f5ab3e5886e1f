import Verif.Spec.Saga
import Verif.Props.Resumed
/-
Interrupted sessions: what is on the drive when a session ends, and what the next one makes of it.
-/
namespace Traverse
variable {κ σ : Type}

/-! ### The walk -/

theorem walk_holding_log (c : Nav) (env : Env σ) (x : σ) (pre : Path) (fs : FS) (hsub : c.sub ≠ .files)
    (hsort : SortPermutes c) (hread : ReadSelects c) (hdistinct : fs.Distinct) (hskip : SkipNone env)
    (hans : ∀ n r, Ev.invoke n r ∈ (walk c env x pre fs).2.log → r = .ok none ∨ r = .panic) :
    let W := walk c env x pre fs
    let all := (items c [] pre 0 (prep c fs)).map (·.node)
    invoked W.2.log <+: all ∧
    ((∀ n, (n, .panic) ∉ calls W.2.log) → invoked W.2.log = all ∧ W.1 = .done none) := by
  intro W all
  have hfrom := walk_from c env x pre fs
  have hsn : ∀ n re sk e, Ev.ask n re sk e ∈ W.2.log → sk = .none := by
    intro n re sk e hm
    obtain ⟨y, hy⟩ := hfrom _ hm
    have := hskip y n re
    rw [hy] at this; exact this
  have hdec : declined c.sub W.2.log = [] := by
    rw [declined_of_skipNone hsub hsn]
    simp only [refused, List.filterMap_eq_nil_iff]
    intro ev hm
    cases ev with
    | invoke n r => rcases hans n r hm with rfl | rfl <;> rfl
    | _ => rfl
  obtain ⟨h1, h2⟩ := walk_pruned c env x pre fs hsub hsort hread hdistinct (fun n re sk e hm => Or.inr (hsn n re sk e hm))
  have hout : ∀ l : List Node, l.filter (outside (declined c.sub W.2.log)) = l := by
    intro l; rw [hdec]; exact List.filter_eq_self.2 (by simp [outside])
  rw [hout] at h1 h2
  refine ⟨h1, fun hnp => ?_⟩
  obtain ⟨h3, h4⟩ := h2 (fun n r hm => by
    rcases hans n r hm with rfl | rfl
    · exact ⟨by simp, by simp⟩
    · exact absurd (mem_calls.2 hm) (hnp n))
  refine ⟨h3, h4.resolve_right ?_⟩
  rintro ⟨n, e, hm, -⟩
  rcases hans n _ hm with h | h <;> cases h

theorem walk_holding (c : Nav) (env : Env σ) (x : σ) (pre : Path) (fs : FS) (hsub : c.sub ≠ .files)
    (hsort : SortPermutes c) (hread : ReadSelects c) (hdistinct : fs.Distinct) (hskip : SkipNone env)
    (hinv : ∀ y n, (env.invoke y n).2 = .ok none ∨ (env.invoke y n).2 = .panic) :
    let W := walk c env x pre fs
    let all := (items c [] pre 0 (prep c fs)).map (·.node)
    invoked W.2.log <+: all ∧ (∀ a ∈ calls W.2.log, a.2 = .ok none ∨ a.2 = .panic) ∧
    ((∀ y n, (env.invoke y n).2 = .ok none) → ∀ a ∈ calls W.2.log, a.2 = .ok none) ∧
    ((∀ n, (n, .panic) ∉ calls W.2.log) → invoked W.2.log = all ∧ W.1 = .done none) := by
  intro W all
  have hfrom := walk_from c env x pre fs
  have hans : ∀ n r, Ev.invoke n r ∈ W.2.log → r = .ok none ∨ r = .panic := by
    intro n r hm
    obtain ⟨y, hy⟩ := hfrom _ hm
    have := hinv y n
    rw [hy] at this; exact this
  obtain ⟨h1, h2⟩ := walk_holding_log c env x pre fs hsub hsort hread hdistinct hskip hans
  refine ⟨h1, ?_, ?_, h2⟩
  · rintro ⟨n, r⟩ hm
    exact hans n r (mem_calls.1 hm)
  · rintro hnil ⟨n, r⟩ hm
    obtain ⟨y, hy⟩ := hfrom _ (mem_calls.1 hm)
    have := hnil y n
    rw [hy] at this; exact this

/-! ### What is on the drive -/

/-- The panic handler's answer, and that the client's files are those the panic handler left. -/
def StoreInv (C : Client κ) (read : κ → String → Except Err Json) (s : St (World κ)) : Prop :=
  ∀ a, s.ext.saves.getLast? = some a → ∃ k, ∀ es n d r, acts s.log = es ++ [.rescue n d r] →
    (C.panics k a).2 = r ∧ ∀ p, read s.ext.client p = read (C.panics k a).1 p

theorem publish_read {C : Client κ} {read : κ → String → Except Err Json} (hlis : ∀ k n p, read (C.listen k n) p = read k p)
    (w : World κ) (n : Note) (p : String) : read (w.publish C n).client p = read w.client p := by
  unfold World.publish
  split <;> simp [hlis]

theorem storeInv_preserved (S : Setup) (C : Client κ) (tree target : Path) {read : κ → String → Except Err Json}
    (hlis : ∀ k n p, read (C.listen k n) p = read k p) : Preserved (S.env C tree target) (StoreInv C read) := by
  refine ⟨?_, ?_, ?_, ?_, ?_⟩
  · intro s p d h a ha
    have hs : (s.ext.publish C (.descend p d)).saves = s.ext.saves := by unfold World.publish; split <;> rfl
    obtain ⟨k, hk⟩ := h a (by simpa [St.doDescend, Setup.env, hs] using ha)
    refine ⟨k, fun es n d' r he => ?_⟩
    obtain ⟨h1, h2⟩ := hk es n d' r (by simpa [St.doDescend, acts, Ev.isAct] using he)
    exact ⟨h1, fun q => (publish_read hlis _ _ q).trans (h2 q)⟩
  · intro s p d h a ha
    have hs : (s.ext.publish C (.ascend p d)).saves = s.ext.saves := by unfold World.publish; split <;> rfl
    obtain ⟨k, hk⟩ := h a (by simpa [St.doAscend, Setup.env, hs] using ha)
    refine ⟨k, fun es n d' r he => ?_⟩
    obtain ⟨h1, h2⟩ := hk es n d' r (by simpa [St.doAscend, acts, Ev.isAct] using he)
    exact ⟨h1, fun q => (publish_read hlis _ _ q).trans (h2 q)⟩
  · intro s n h a _
    refine ⟨s.ext.client, fun es m d r he => ?_⟩
    simp only [St.doInvoke, acts, List.filter_append] at he
    have := congrArg List.getLast? he
    simp [Ev.isAct] at this
  · intro s n re h a _
    refine ⟨s.ext.client, fun es m d r he => ?_⟩
    simp only [St.doAsk, acts, List.filter_append] at he
    have := congrArg List.getLast? he
    simp [Ev.isAct] at this
  · intro s n h a ha
    refine ⟨s.ext.client, fun es m d r he => ?_⟩
    simp only [St.doRescue, Setup.env, List.getLast?_append, List.getLast?_singleton, Option.some_or, Option.some.injEq] at ha
    simp only [St.doRescue, acts, List.filter_append] at he
    have := congrArg List.getLast? he
    simp [Ev.isAct] at this
    refine ⟨?_, fun p => ?_⟩
    · rw [← this.2.2, ← ha]; rfl
    · rw [← ha]; rfl

/-- A session in which a handler call below the root panics: what it returns and what it leaves on the drive. -/
theorem session_saved (S : Setup) (C : Client κ) {read : κ → String → Except Err Json} (hlis : ∀ k n p, read (C.listen k n) p = read k p)
    (x : κ) (carried : Metrics) (target pre : Path) (fs : FS) (hsort : SortPermutes S.nav) (hread : ReadSelects S.nav) (n : Node)
    (hcall : (n, .panic) ∈ calls (S.session C x carried target pre fs).2.log) (hroot : n.path ≠ pre ++ [fs.name]) :
    let R := S.session C x carried target pre fs
    ∃ before k a, calls R.2.log = before ++ [(n, .panic)] ∧ (∀ c ∈ before, c.2 ≠ .panic) ∧
      R.1 = .done (some (C.panics k a).2.err) ∧ (∀ p, read R.2.ext.client p = read (C.panics k a).1 p) ∧
      a.tree = pre ++ [fs.name] ∧ a.sub = S.nav.sub ∧ a.currentPath = n.path.dropLast := by
  intro R
  obtain ⟨before, cur, r, g1, g2, g3, g4, g5⟩ := C17_panic_rescued_partial S.nav _ (S.world x carried) pre fs n hcall hroot
  obtain ⟨a, parent, s1, s2, s3, s4, s5, -⟩ := C18_saved_state S C x carried target pre fs hsort hread n hcall hroot
  have hinv : StoreInv C read R.2 := traverse_inv (storeInv_preserved S C _ target hlis) S.nav _ [] pre _
    (by intro a ha; simp [St.fresh, Setup.world] at ha)
  obtain ⟨k, hk⟩ := hinv a (by rw [s1]; rfl)
  obtain ⟨hk1, hk2⟩ := hk (before ++ [.invoke n .panic]) cur (n.depth - 1) r (by
    refine Eq.trans g1 ?_
    simp)
  refine ⟨calls before, k, a, ?_, ?_, ?_, hk2, s3, s4, s5⟩
  · rw [← calls_acts]
    refine Eq.trans (congrArg calls g1) ?_
    simp [calls]
  · rintro ⟨m, r⟩ hc rfl
    exact g3 m (mem_calls.1 hc)
  · rw [hk1]; exact g5

/-! ### Writing it -/

theorem author_saved {D : Drive κ} (hD : D.Keeps) {mag : String} {o : Options κ} {t r : Bool} {k : κ} {a : Active} {file : String}
    (h : (D.author mag o t r k a).2 = .saved file) :
    ∃ doc, marshal o ⟨a, t, r⟩ = .ok doc ∧ D.read (D.author mag o t r k a).1 file = .ok doc := by
  obtain ⟨doc, hd⟩ : ∃ doc, marshal o ⟨a, t, r⟩ = .ok doc := by simp [marshal, comparisonEquals, toJSON_equal]
  revert h
  rcases hm : D.makeDirAll k (D.destination o.adminPath mag k).1 with ⟨k1, _ | e⟩
  · rcases hw : D.write k1 (D.join (D.destination o.adminPath mag k).1 (D.destination o.adminPath mag k).2) doc with ⟨k2, _ | e⟩
    · simp only [Drive.author, hm, hd, hw]
      intro h
      simp only [Rescue.saved.injEq] at h
      exact ⟨doc, rfl, h ▸ hD _ _ _ _ hw⟩
    · simp only [Drive.author, hm, hd, hw]; intro h; cases h
  · simp only [Drive.author, hm]; intro h; cases h

/-! ### Dozing -/

/-- A dozing client accepts everything until it is woken, which it is at `p`. -/
def DozeInv (p : Path) (s : St (World (Doze κ))) : Prop :=
  (∀ h ∈ s.ext.hits.takeWhile (fun h => !decide (h.parcel.node.path = p)), h.reply = .ok none) ∧
  (s.ext.client.awake = true ↔ ∃ h ∈ s.ext.hits, h.parcel.node.path = p)

theorem takeWhile_snoc {α : Type} (P : α → Bool) (l : List α) (x : α) :
    (l ++ [x]).takeWhile P = if ∀ a ∈ l, P a = true then l ++ (if P x then [x] else []) else l.takeWhile P := by
  induction l with
  | nil => cases h : P x <;> simp [List.takeWhile, h]
  | cons a l ih =>
    cases ha : P a with
    | false => simp [List.takeWhile_cons, ha]
    | true =>
      simp only [List.cons_append, List.takeWhile_cons, ha, if_true, ih, List.mem_cons, forall_eq_or_imp, true_and]
      split <;> rfl

theorem takeWhile_all {α : Type} {P : α → Bool} (l : List α) (h : ∀ a ∈ l, P a = true) : l.takeWhile P = l := by
  induction l with
  | nil => rfl
  | cons a l ih => rw [List.takeWhile_cons, if_pos (h a (by simp)), ih (fun b hb => h b (by simp [hb]))]

theorem dozeInv_preserved (S : Setup) (C : Client κ) (tree p : Path) : Preserved (bareEnv S (C.dozing p) tree) (DozeInv p) := by
  have hl : ∀ (k : Doze κ) n, ((C.dozing p).listen k n).awake = k.awake := by
    intro k n; simp only [Client.dozing]; split <;> rfl
  refine ⟨?_, ?_, ?_, ?_, ?_⟩
  · intro s q d h; simpa [DozeInv, St.doDescend, bareEnv, hl] using h
  · intro s q d h; simpa [DozeInv, St.doAscend, bareEnv, hl] using h
  · intro s n h
    obtain ⟨h1, h2⟩ := h
    have hr : ∀ k : Doze κ, ¬ (k.awake = true ∨ n.path = p) → ((C.dozing p).handler k ⟨n, S.childrenOf n⟩).2 = .ok none ∧
        ((C.dozing p).handler k ⟨n, S.childrenOf n⟩).1.awake = k.awake := by
      intro k hk
      simp only [not_or, Bool.not_eq_true] at hk
      simp only [Client.dozing, hk, decide_false, Bool.or_false, Bool.false_eq_true, if_false]
      refine ⟨trivial, ?_⟩
      split <;> rfl
    have hr' : ∀ k : Doze κ, (k.awake = true ∨ n.path = p) → ((C.dozing p).handler k ⟨n, S.childrenOf n⟩).1.awake = true := by
      intro k hk
      have : (k.awake || decide (n.path = p)) = true := by simpa using hk
      simp only [Client.dozing, this, if_true]
    constructor
    · simp only [St.doInvoke, bareEnv, takeWhile_snoc]
      split
      · rename_i hall
        intro h hm
        have hna : s.ext.client.awake ≠ true := fun ha => by
          obtain ⟨h, hh, hp⟩ := h2.1 ha
          simpa [hp] using hall h hh
        rcases List.mem_append.1 hm with hm | hm
        · exact h1 h (by rw [takeWhile_all _ hall]; exact hm)
        · split at hm
          · rename_i hnp
            simp only [List.mem_singleton] at hm
            subst hm
            exact (hr _ (by simp only [not_or]; exact ⟨hna, by simpa using hnp⟩)).1
          · simp at hm
      · exact h1
    · simp only [St.doInvoke, bareEnv, List.mem_append, List.mem_singleton]
      by_cases ha : s.ext.client.awake = true ∨ n.path = p
      · refine ⟨fun _ => ?_, fun _ => hr' _ ha⟩
        rcases ha with ha | ha
        · obtain ⟨h, hh, hp⟩ := h2.1 ha
          exact ⟨h, Or.inl hh, hp⟩
        · exact ⟨_, Or.inr rfl, ha⟩
      · rw [(hr _ ha).2]
        refine ⟨fun h => absurd (Or.inl h) ha, ?_⟩
        rintro ⟨h, hh | rfl, hp⟩
        · exact h2.2 ⟨h, hh, hp⟩
        · exact absurd (Or.inr hp) ha
  · intro s n re h; simpa [DozeInv, St.doAsk, bareEnv, Client.dozing] using h
  · intro s n h; simpa [DozeInv, St.doRescue, bareEnv, Client.dozing] using h

theorem doze_inv (S : Setup) (C : Client κ) (x : κ) (carried : Metrics) (tree p pre : Path) (fs : FS) :
    DozeInv p (walk S.nav (bareEnv S (C.dozing p) tree) (S.world { own := x } carried) pre fs).2 :=
  traverse_inv (dozeInv_preserved S C tree p) S.nav _ [] pre _ (by simp [DozeInv, St.fresh, Setup.world])

/-! ### One session -/

/-- What a session says and leaves behind that is to deliver the nodes `part`, if the handler accepts or panics; `save` is its panic
handler. -/
structure Episode (read : κ → String → Except Err Json) (save : κ → Active → κ × Rescue) (tree : Path) (sub : Subscription)
    (part : List Node) (h : κ → Parcel → κ × Reply) (rep : Report κ) : Prop where
  nodes : rep.nodes <+: part
  holds : ∀ a ∈ rep.answers, a.2 = .ok none ∨ a.2 = .panic
  accepts : Handler.Nil h → ∀ a ∈ rep.answers, a.2 = .ok none
  ended : (∀ n, (n, .panic) ∉ rep.answers) → rep.nodes = part ∧ rep.verdict = .done none
  broken : ∀ n, (n, .panic) ∈ rep.answers → n.path ≠ tree → ∃ before k a, rep.answers = before ++ [(n, .panic)] ∧
    (∀ c ∈ before, c.2 ≠ .panic) ∧ rep.verdict = .done (some (save k a).2.err) ∧ (∀ p, read rep.client p = read (save k a).1 p) ∧
    a.tree = tree ∧ a.sub = sub ∧ a.currentPath = n.path.dropLast

theorem session_episode {S : Setup} (hb : S.Bare) (C : Client κ) {read : κ → String → Except Err Json}
    (hlis : ∀ k n p, read (C.listen k n) p = read k p) (x : κ) (carried : Metrics) (target pre : Path) (fs : FS)
    (hsub : S.nav.sub ≠ .files) (hsort : SortPermutes S.nav) (hread : ReadSelects S.nav) (hdistinct : fs.Distinct)
    (hskip : ∀ k n re, (C.skip k n re).2.1 = .none) (hh : Handler.Holds C.handler) :
    let R := S.session C x carried target pre fs
    let all := (items S.nav [] pre 0 (prep S.nav fs)).map (·.node)
    let answers := R.2.ext.hits.map (fun h => (h.parcel.node, h.reply))
    answers = calls R.2.log ∧ answers.map Prod.fst <+: all ∧ (∀ a ∈ answers, a.2 = .ok none ∨ a.2 = .panic) ∧
    (Handler.Nil C.handler → ∀ a ∈ answers, a.2 = .ok none) ∧
    ((∀ n, (n, .panic) ∉ answers) → answers.map Prod.fst = all ∧ R.1 = .done none) := by
  intro R all answers
  obtain ⟨b1, b2, b3⟩ := bare_session hb C x carried target pre fs
  have hbh := bare_hits S C x carried (pre ++ [fs.name]) pre fs
  have ha : answers = calls R.2.log := by
    show R.2.ext.hits.map _ = _
    rw [b3.hits, show R.2.log = _ from b2]; exact hbh
  obtain ⟨w1, w2, w2', w3⟩ := walk_holding S.nav (bareEnv S C (pre ++ [fs.name])) (S.world x carried) pre fs hsub hsort hread hdistinct
    (fun y n re => hskip y.client n re) (fun y n => hh y.client _)
  have hl : calls R.2.log = calls (walk S.nav (bareEnv S C (pre ++ [fs.name])) (S.world x carried) pre fs).2.log := congrArg calls b2
  refine ⟨ha, ?_, ?_, fun hnil => ?_, ?_⟩
  · rw [ha, hl]; exact w1
  · rw [ha, hl]; exact w2
  · rw [ha, hl]; exact w2' (fun y n => hnil y.client _)
  · rw [ha, hl, show R.1 = _ from b1]; exact w3

theorem dropWhile_prefix {α : Type} (P : α → Bool) {l m : List α} (h : l <+: m) : l.dropWhile P <+: m.dropWhile P := by
  obtain ⟨r, rfl⟩ := h
  rw [List.dropWhile_append]
  split
  · rename_i he
    rw [List.isEmpty_iff] at he
    rw [he]; exact List.nil_prefix
  · exact List.prefix_append _ _

/-- A fastward session. -/
theorem fastward_episode {S : Setup} (hres : S.resume = some .fastward) (hb : S.first.Bare) (C : Client κ)
    {read : κ → String → Except Err Json} (hlis : ∀ k n p, read (C.listen k n) p = read k p) (x : κ) (carried : Metrics)
    (p pre : Path) (fs : FS) (hp : Resumable pre fs.name p)
    (hsub : S.nav.sub ≠ .files) (hsort : SortPermutes S.nav) (hread : ReadSelects S.nav) (hdistinct : fs.Distinct)
    (hskip : ∀ k n re, (C.skip k n re).2.1 = .none) (hh : Handler.Holds C.handler) :
    let R := S.session C x carried p pre fs
    let part := ((items S.nav [] pre 0 (prep S.nav fs)).map (·.node)).dropWhile (fun n => !decide (n.path = p))
    let answers := R.2.ext.hits.map (fun h => (h.parcel.node, h.reply))
    answers.map Prod.fst <+: part ∧ (∀ a ∈ answers, a.2 = .ok none ∨ a.2 = .panic) ∧
    (Handler.Nil C.handler → ∀ a ∈ answers, a.2 = .ok none) ∧
    answers.Sublist (calls R.2.log) ∧
    ((∀ n, (n, .panic) ∉ answers) → answers.map Prod.fst = part ∧ R.1 = .done none) := by
  intro R part answers
  obtain ⟨d1, d2, -, d4, -⟩ := C19_as_if_dozing S hres C x carried pre fs p hp
  have hhd : Handler.Holds (C.dozing p).handler := by
    intro k q
    simp only [Client.dozing]
    split
    · exact hh _ _
    · exact Or.inl rfl
  obtain ⟨e1, e2, e3, e3', e4⟩ := session_episode (S := S.first) hb (C.dozing p) (read := fun _ _ => .error default) (fun _ _ _ => rfl) { own := x } carried [] pre fs
    hsub hsort hread hdistinct (fun k n re => hskip k.own n re) hhd
  obtain ⟨-, -, b3⟩ := bare_session hb (C.dozing p) { own := x } carried [] pre fs
  have hdz := (doze_inv S.first C x carried (pre ++ [fs.name]) p pre fs).1
  rw [← b3.hits] at hdz
  change ∀ h ∈ List.takeWhile _ (S.first.session (C.dozing p) { own := x } carried [] pre fs).2.ext.hits, _ at hdz
  generalize S.first.session (C.dozing p) { own := x } carried [] pre fs = U at *
  have hans : answers = (U.2.ext.hits.map (fun h => (h.parcel.node, h.reply))).dropWhile (fun a => !decide (a.1.path = p)) := by
    have := congrArg (List.map (fun g : Parcel × Reply => (g.1.node, g.2))) d4
    rw [map_dropWhile_key (fun g : Parcel × Reply => (g.1.node, g.2)) (fun a => !decide (a.1.path = p))] at this
    simpa [List.map_map, Function.comp_def, Hit.gist] using this
  have hnodes : answers.map Prod.fst = ((U.2.ext.hits.map (fun h => (h.parcel.node, h.reply))).map Prod.fst).dropWhile (fun n => !decide (n.path = p)) := by
    rw [hans, map_dropWhile_key Prod.fst (fun n : Node => !decide (n.path = p))]
  refine ⟨?_, ?_, fun hnil => ?_, ?_, ?_⟩
  · rw [hnodes]; exact dropWhile_prefix _ e2
  · intro a ha
    rw [hans] at ha
    exact e3 a ((List.dropWhile_sublist _).subset ha)
  · intro a ha
    rw [hans] at ha
    exact e3' (dozing_nil hnil p) a ((List.dropWhile_sublist _).subset ha)
  · rw [show R.2.log = _ from d2, ← e1, hans]
    exact List.dropWhile_sublist _
  · intro hnp
    obtain ⟨f1, f2⟩ := e4 (by
      intro n hm
      rw [← List.takeWhile_append_dropWhile (p := fun a : Node × Reply => !decide (a.1.path = p)) (l := U.2.ext.hits.map _)] at hm
      rcases List.mem_append.1 hm with hm | hm
      · rw [List.takeWhile_map] at hm
        obtain ⟨h, hm, he⟩ := List.mem_map.1 hm
        have := hdz h hm
        simp only [Prod.mk.injEq] at he
        rw [this] at he
        cases he.2
      · exact hnp n (by rw [hans]; exact hm))
    refine ⟨?_, by rw [show R.1 = _ from d1]; exact f2⟩
    rw [hnodes, f1]; rfl

end Traverse
