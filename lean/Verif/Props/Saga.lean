import Verif.Proofs.Saga
/-
C63: a traversal that panics, is saved and resumed, loses nothing.
-/
namespace Traverse
variable {κ : Type}

section
variable {P Q : Platform κ} {D : Drive κ} {u : Using κ} {settings₀ settings : List (Option (Setting κ))} {disk : Disk}
  {o₀ o : Options κ} {h₀ : κ → Parcel → κ × Reply} {r : Relic κ} {t rr : Bool} {pre : Path} {fs : FS}

theorem tale_first (T : Tale P Q D u settings₀ settings disk o₀ o h₀ r t rr pre fs) (hsub : u.sub ≠ .files)
    (hsort : SortPermutes (o₀.afterwards.nav u.sub)) (hread : ReadSelects (o₀.afterwards.nav u.sub)) (hdistinct : fs.Distinct) (x : κ) :
    Episode D.read o₀.defects.panic u.tree u.sub
      ((items (o₀.afterwards.nav u.sub) [] pre 0 (prep (o₀.afterwards.nav u.sub) fs)).map (·.node)) h₀
      (walkPrime P (.using u) settings₀ disk x) := by
  have h1 := started_session (primed_started T.first) x
  have hC : o₀.afterwards.client h₀ = o₀.client h₀ := rfl
  rw [hC] at h1
  simp only at h1
  have hlis : ∀ k n p, D.read ((o₀.client h₀).listen k n) p = D.read k p := T.quiet₀
  obtain ⟨e1, e2, e3, e3', e4⟩ := session_episode (primed_bare o₀ u.sub) (o₀.client h₀) hlis ((o₀.client h₀).listen x (.begin u.tree))
    (fun _ => none) [] pre fs hsub hsort hread hdistinct T.skip₀ T.holds
  have hsv := session_saved (primedSetup o₀ u.sub) (o₀.client h₀) hlis ((o₀.client h₀).listen x (.begin u.tree)) (fun _ => none) [] pre fs
    hsort hread
  have hnav : (primedSetup o₀ u.sub).nav = o₀.afterwards.nav u.sub := rfl
  rw [hnav] at e2 e4 hsv
  simp only at hsv
  generalize (primedSetup o₀ u.sub).session (o₀.client h₀) ((o₀.client h₀).listen x (.begin u.tree)) (fun _ => none) [] pre fs = R at *
  have hhits : (walkPrime P (.using u) settings₀ disk x).hits = R.2.ext.hits := by rw [h1]; cases R.1 <;> rfl
  have hv : (walkPrime P (.using u) settings₀ disk x).verdict = R.1.verdict := by rw [h1]; cases R.1 <;> rfl
  have hn : ∀ rep : Report κ, rep.nodes = rep.answers.map Prod.fst := by
    intro rep; simp [Report.nodes, Report.answers, Function.comp_def]
  have ha : (walkPrime P (.using u) settings₀ disk x).answers = R.2.ext.hits.map (fun h => (h.parcel.node, h.reply)) := by
    rw [Report.answers, hhits]
  refine ⟨?_, ?_, ?_, ?_, ?_⟩
  · rw [hn, ha]; exact e2
  · rw [ha]; exact e3
  · rw [ha]; exact e3'
  · rw [hn, ha, hv]
    intro hnp
    obtain ⟨g1, g2⟩ := e4 hnp
    exact ⟨g1, by rw [g2]; rfl⟩
  · rw [ha, hv]
    intro n hm hroot
    rw [e1] at hm ⊢
    obtain ⟨before, k, a, s1, s2, s3, s4, s5, s6, s7⟩ := hsv n hm (by rw [← T.first.tree]; exact hroot)
    refine ⟨before, k, a, s1, s2, by rw [s3]; rfl, fun p => ?_, by rw [T.first.tree]; exact s5, s6, s7⟩
    rw [h1, s3]
    exact (hlis _ _ _).trans (s4 p)

theorem tale_next (T : Tale P Q D u settings₀ settings disk o₀ o h₀ r t rr pre fs) (hst : r.strategy = .fastward) (hsub : u.sub ≠ .files)
    (hsort : SortPermutes (o₀.afterwards.nav u.sub)) (hread : ReadSelects (o₀.afterwards.nav u.sub)) (hdistinct : fs.Distinct)
    {a : Active} {file : String} {k : κ}
    (hload : ∃ o', unmarshal Q (D.read k file) = .ok (o', ⟨a, t, rr⟩) ∧ bindOptions o' settings = (o, none))
    (htree : a.tree = u.tree) (hasub : a.sub = u.sub) (hp : Resumable pre fs.name a.currentPath)
    {h : κ → Parcel → κ × Reply} (hh : Handler.Holds h) :
    Episode D.read o.defects.panic u.tree u.sub
      (((items (o₀.afterwards.nav u.sub) [] pre 0 (prep (o₀.afterwards.nav u.sub) fs)).map (·.node)).dropWhile
        (fun n => !decide (n.path = a.currentPath))) h
      (walkOn Q D r settings disk h file k) := by
  obtain ⟨o', hl, ho⟩ := hload
  let r' : Relic κ := { r with handler := some h, «from» := file }
  have hplat : resumePlatform Q r' settings (D.read k r'.from) = .ok (o, a) := by
    rw [platform_loaded hl ho]
    have hs := T.systems
    unfold Relic.Systems at hs
    rw [← htree] at hs
    have : r'.systems a.tree = some (t, rr) := by
      simp only [Relic.systems, r']
      cases hf : r.forest with
      | none => simp only [hf] at hs; simp [hs]
      | some f => simp only [hf] at hs; exact hs
    simp only [this, ne_eq, not_true_eq_false, if_false]
  have hb := bare_built (P := Q) T.bare a.sub (some r.strategy) (by rw [hasub]; exact T.first.sub)
  have hnav : o.afterwards.nav a.sub = o₀.afterwards.nav u.sub := by rw [hasub, T.same]
  rw [hnav] at hb
  generalize hS : plainSetup (o₀.afterwards.nav u.sub) (some r.strategy)
    { inclusiveWake := o.hibernate.inclusiveWake, inclusiveSleep := o.hibernate.inclusiveSleep } = S at hb
  have hSn : S.nav = o₀.afterwards.nav u.sub := by rw [← hS]; rfl
  have hres : S.resume = some .fastward := by rw [← hS, hst]; rfl
  have hSb : S.first.Bare := by rw [← hS]; exact ⟨Or.inl rfl, rfl, rfl, rfl⟩
  have hC : o.afterwards.client h = o.client h := rfl
  have htree' : a.tree = pre ++ [fs.name] := by rw [htree]; exact T.first.tree
  have hfs : disk a.tree = .ok fs := by rw [htree]; exact T.first.disk
  have hstat : statOf S.nav o.afterwards disk a.tree = .found (prep S.nav fs) := by
    have : ∀ s, o.afterwards.hooks.queryStatus.invoke s = s := T.status
    simp only [statOf, hfs, this]
  have hpre : a.tree.dropLast = pre := by rw [htree', List.dropLast_concat]
  have hstart : (S.world k (fun _ => none)).publish (o.client h) (.begin a.tree) = S.world k (fun _ => none) := by
    simp [World.publish, Setup.world, hres]
  have hrun : resumeRun S o.afterwards (o.client h) disk .fastward a (S.world k (fun _ => none)) =
      ((S.session (o.client h) k (fun _ => none) a.currentPath pre fs).1, true, (S.session (o.client h) k (fun _ => none) a.currentPath pre fs).2) := by
    simp only [resumeRun, runTop, hstat, top, hpre, Setup.session, walk, ← htree']
    rfl
  have hrep : walkOn Q D r settings disk h file k = (Built.ready S o.afterwards).resume .fastward h disk a k := by
    show walkResume Q (.relic r') settings (D.read k) disk k = _
    simp only [walkResume, hplat]
    rw [show r'.strategy = r.strategy from rfl, hb, hst]
    rfl
  have h1 : walkOn Q D r settings disk h file k =
      match (S.session (o.client h) k (fun _ => none) a.currentPath pre fs).1 with
      | .panic => { verdict := .panic, client := (S.session (o.client h) k (fun _ => none) a.currentPath pre fs).2.ext.client,
                    tape := (S.session (o.client h) k (fun _ => none) a.currentPath pre fs).2.ext.tape,
                    hits := (S.session (o.client h) k (fun _ => none) a.currentPath pre fs).2.ext.hits }
      | .done e =>
        let w' := (S.session (o.client h) k (fun _ => none) a.currentPath pre fs).2.ext.publish (o.client h) .ended
        { verdict := .done e, client := w'.client, tape := w'.tape, hits := w'.hits, metrics := w'.metrics, complete := true } := by
    rw [hrep]
    simp only [Built.resume, hC]
    rw [if_neg (by decide), hstart, hrun]
    cases (S.session (o.client h) k (fun _ => none) a.currentPath pre fs).1 <;> rfl
  have hlis : ∀ k n p, D.read ((o.client h).listen k n) p = D.read k p := T.quiet
  rw [← hSn] at hsort hread ⊢
  have hsub' : S.nav.sub = u.sub := by rw [hSn]; rfl
  obtain ⟨e1, e2, e2', e3, e4⟩ := fastward_episode hres hSb (o.client h) hlis k (fun _ => none) a.currentPath pre fs hp
    (by rw [hsub']; exact hsub) hsort hread hdistinct T.skip hh
  have hsv := session_saved S (o.client h) hlis k (fun _ => none) a.currentPath pre fs hsort hread
  simp only at hsv
  generalize S.session (o.client h) k (fun _ => none) a.currentPath pre fs = R at *
  have hhits : (walkOn Q D r settings disk h file k).hits = R.2.ext.hits := by
    rw [h1]; cases R.1 <;> simp
  have hv : (walkOn Q D r settings disk h file k).verdict = R.1.verdict := by rw [h1]; cases R.1 <;> rfl
  have hn : ∀ rep : Report κ, rep.nodes = rep.answers.map Prod.fst := by
    intro rep; simp [Report.nodes, Report.answers, Function.comp_def]
  have ha : (walkOn Q D r settings disk h file k).answers = R.2.ext.hits.map (fun h => (h.parcel.node, h.reply)) := by
    rw [Report.answers, hhits]
  refine ⟨?_, ?_, ?_, ?_, ?_⟩
  · rw [hn, ha]; exact e1
  · rw [ha]; exact e2
  · rw [ha]; exact e2'
  · rw [hn, ha, hv]
    intro hnp
    obtain ⟨g1, g2⟩ := e4 hnp
    exact ⟨g1, by rw [g2]; rfl⟩
  · rw [ha, hv]
    intro n hm hroot
    obtain ⟨before, k', b, s1, s2, s3, s4, s5, s6, s7⟩ := hsv n (e3.subset hm) (by rw [← T.first.tree]; exact hroot)
    obtain ⟨bs, hb1, hb2⟩ := sublist_last (by rw [← s1]; exact e3) hm (fun hc => s2 _ hc rfl)
    refine ⟨bs, k', b, hb1, fun c hc => s2 c (hb2.subset hc), by rw [s3]; rfl, fun p => ?_, by rw [T.first.tree]; exact s5, by rw [s6, hsub'], s7⟩
    rw [h1, s3]
    exact (publish_read hlis _ _ p).trans (s4 p)

/-- The node with path `p` lies before the nodes directly inside it. -/
theorem part_covers {c : Nav} {pre : Path} {tr : Tree} (hd : tr.Distinct) {l rest : List Node} {n : Node}
    (he : (items c [] pre 0 tr).map (·.node) = l ++ n :: rest) (hp : pre ++ [tr.name] <+: n.path.dropLast) :
    ∃ q l₂, q.path = n.path.dropLast ∧
      ((items c [] pre 0 tr).map (·.node)).dropWhile (fun m => !decide (m.path = n.path.dropLast)) = q :: l₂ ++ n :: rest := by
  have hlt : n.path.dropLast.length < n.path.length := by
    have h1 : n.path ≠ [] := by
      intro h0; rw [h0] at hp
      have := hp.length_le
      simp at this
    rw [List.length_dropLast]
    have := List.length_pos_iff.2 h1
    omega
  have hn : n ∈ (items c [] pre 0 tr).map (·.node) := by rw [he]; simp
  obtain ⟨it, hit, rfl⟩ := List.mem_map.1 hn
  obtain ⟨i, hi, hip⟩ := items_ancestor c tr [] pre 0 it hit it.node.path.dropLast hp (List.dropLast_prefix _)
  have hpw : ((items c [] pre 0 tr).map (·.node)).Pairwise (fun a b => ¬ b.path <+: a.path) := by
    rw [List.pairwise_map]; exact (items_preOrder c tr hd [] pre 0).pairwise
  rw [he] at hpw ⊢
  have hmem : i.node ∈ l ++ it.node :: rest := by rw [← he]; exact List.mem_map.2 ⟨i, hi, rfl⟩
  have hil : i.node ∈ l := by
    rcases List.mem_append.1 hmem with h | h
    · exact h
    · exfalso
      rcases List.mem_cons.1 h with h | h
      · rw [h] at hip; rw [← hip] at hlt; exact Nat.lt_irrefl _ hlt
      · have := (List.pairwise_cons.1 (List.pairwise_append.1 hpw).2.1).1 _ h
        exact this (by rw [hip]; exact List.dropLast_prefix _)
  have hdw : l.dropWhile (fun m => !decide (m.path = it.node.path.dropLast)) ≠ [] := by
    intro h0
    have : ∀ (l : List Node), i.node ∈ l → l.dropWhile (fun m => !decide (m.path = it.node.path.dropLast)) = [] → False := by
      intro l
      induction l with
      | nil => simp
      | cons b l ih =>
        intro hm hl
        rw [List.dropWhile_cons] at hl
        split at hl
        · rename_i hb
          rcases List.mem_cons.1 hm with rfl | hm
          · simp [hip] at hb
          · exact ih hm hl
        · cases hl
    exact this l hil h0
  rw [List.dropWhile_append]
  rw [if_neg (by simpa using hdw)]
  rcases hq : l.dropWhile (fun m => !decide (m.path = it.node.path.dropLast)) with _ | ⟨q, l₂⟩
  · exact absurd hq hdw
  · refine ⟨q, l₂, ?_, by rw [hq]⟩
    have := List.head?_dropWhile_not (fun m : Node => !decide (m.path = it.node.path.dropLast)) l
    rw [hq] at this
    simpa using this

/-- What the author saved can be loaded. -/
theorem tale_loads (T : Tale P Q D u settings₀ settings disk o₀ o h₀ r t rr pre fs) {save : κ → Active → κ × Rescue}
    (hsave : save = o₀.defects.panic ∨ save = o.defects.panic) {k k' : κ} {a : Active} {file : String}
    (hs : (save k a).2 = .saved file) (hk : ∀ p, D.read k' p = D.read (save k a).1 p) :
    ∃ o', unmarshal Q (D.read k' file) = .ok (o', ⟨a, t, rr⟩) ∧ bindOptions o' settings = (o, none) := by
  rcases hsave with rfl | rfl
  · rw [T.author₀] at hs hk
    obtain ⟨doc, h1, h2⟩ := author_saved T.keeps hs
    rw [hk, h2]; exact T.load₀ a doc h1
  · rw [T.author] at hs hk
    obtain ⟨doc, h1, h2⟩ := author_saved T.keeps hs
    rw [hk, h2]; exact T.load a doc h1

theorem tale_sound (T : Tale P Q D u settings₀ settings disk o₀ o h₀ r t rr pre fs) (hD : D.Sound) {save : κ → Active → κ × Rescue}
    (hsave : save = o₀.defects.panic ∨ save = o.defects.panic) (k : κ) (a : Active) : ∃ file, (save k a).2 = .saved file := by
  have h : ∀ mag (o : Options κ), ∃ file, (D.author mag o t rr k a).2 = .saved file := by
    intro mag o
    obtain ⟨doc, hd⟩ : ∃ doc, marshal o ⟨a, t, rr⟩ = .ok doc := by simp [marshal, comparisonEquals, toJSON_equal]
    rcases hm : D.makeDirAll k (D.destination o.adminPath mag k).1 with ⟨k1, e1⟩
    have h1 := hD.1 k (D.destination o.adminPath mag k).1
    rw [hm] at h1
    simp only at h1
    subst h1
    rcases hw : D.write k1 (D.join (D.destination o.adminPath mag k).1 (D.destination o.adminPath mag k).2) doc with ⟨k2, e2⟩
    have h2 := hD.2 k1 (D.join (D.destination o.adminPath mag k).1 (D.destination o.adminPath mag k).2) doc
    rw [hw] at h2
    simp only at h2
    subst h2
    exact ⟨D.join (D.destination o.adminPath mag k).1 (D.destination o.adminPath mag k).2, by simp only [Drive.author, hm, hd, hw]⟩
  rcases hsave with rfl | rfl
  · rw [T.author₀]; exact h _ _
  · rw [T.author]; exact h _ _

/-- Either everything was accepted, or the last call panicked. -/
theorem episode_cases {read : κ → String → Except Err Json} {save : κ → Active → κ × Rescue} {tree : Path} {sub : Subscription}
    {part : List Node} {h : κ → Parcel → κ × Reply} {rep : Report κ} (E : Episode read save tree sub part h rep)
    (hdeep : ∀ n, (n, .panic) ∈ rep.answers → n.path ≠ tree) :
    (rep.verdict = .done none ∧ rep.answers = part.map (fun n => (n, .ok none))) ∨
    ∃ n before rest k a, rep.answers = before.map (fun n => (n, .ok none)) ++ [(n, .panic)] ∧ part = before ++ n :: rest ∧
      rep.verdict = .done (some (save k a).2.err) ∧ (∀ p, read rep.client p = read (save k a).1 p) ∧
      a.tree = tree ∧ a.sub = sub ∧ a.currentPath = n.path.dropLast := by
  have hn : rep.nodes = rep.answers.map Prod.fst := by simp [Report.nodes, Report.answers, Function.comp_def]
  have hmap : ∀ l : List (Node × Reply), (∀ b ∈ l, b.2 = .ok none) → l = (l.map Prod.fst).map (fun n => (n, .ok none)) := by
    intro l hl
    rw [List.map_map]
    conv => lhs; rw [← List.map_id l]
    exact List.map_congr_left (fun b hb => by rcases b with ⟨m, q⟩; simpa using hl _ hb)
  by_cases hp : ∀ n, (n, Reply.panic) ∉ rep.answers
  · obtain ⟨h1, h2⟩ := E.ended hp
    refine Or.inl ⟨h2, ?_⟩
    rw [← h1, hn]
    refine hmap _ (fun b hb => (E.holds b hb).resolve_right (fun hc => hp b.1 ?_))
    rw [← hc]; exact hb
  · simp only [Classical.not_forall, Classical.not_not] at hp
    obtain ⟨n, hm⟩ := hp
    obtain ⟨before, k, a, h1, h2, h3, h4, h5, h6, h7⟩ := E.broken n hm (hdeep n hm)
    have hb : ∀ b ∈ before, b.2 = .ok none := fun b hb => (E.holds b (by rw [h1]; simp [hb])).resolve_right (h2 b hb)
    obtain ⟨rest, hr⟩ := E.nodes
    rw [hn, h1] at hr
    refine Or.inr ⟨n, before.map Prod.fst, rest, k, a, ?_, ?_, h3, h4, h5, h6, h7⟩
    · rw [h1, ← hmap before hb]
    · rw [← hr]; simp

/-- What the sessions deliver, one after the other. -/
theorem saga_chapters (T : Tale P Q D u settings₀ settings disk o₀ o h₀ r t rr pre fs) (hst : r.strategy = .fastward) (hsub : u.sub ≠ .files)
    (hsort : SortPermutes (o₀.afterwards.nav u.sub)) (hread : ReadSelects (o₀.afterwards.nav u.sub)) (hdistinct : fs.Distinct) :
    let all := (items (o₀.afterwards.nav u.sub) [] pre 0 (prep (o₀.afterwards.nav u.sub) fs)).map (·.node)
    ∀ (hs : List (κ → Parcel → κ × Reply)) (rep : Report κ) (h : κ → Parcel → κ × Reply) (part : List Node) (save : κ → Active → κ × Rescue),
    (save = o₀.defects.panic ∨ save = o.defects.panic) → Episode D.read save u.tree u.sub part h rep → part <:+ all → (∀ g ∈ hs, Handler.Holds g) →
    let reps := rep :: saga (walkOn Q D r settings disk) rep hs
    (∀ q ∈ reps, ∀ n, (n, .panic) ∈ q.answers → Resumable pre fs.name n.path.dropLast) →
    (∀ q ∈ reps, q.nodes <:+: all ∧ ∀ b ∈ q.answers.dropLast, b.2 = .ok none) ∧
    (∀ a b, [a, b] <:+: reps → ∃ n, a.answers.getLast? = some (n, .panic) ∧ (b.nodes.head?).map (·.path) = some n.path.dropLast) ∧
    (∀ last, reps.getLast? = some last → last.verdict = .done none → ∀ n ∈ part, ∃ q ∈ reps, (n, .ok none) ∈ q.answers) ∧
    (D.Sound → ∀ g, (h :: hs).getLast? = some g → Handler.Nil g → ∃ last, reps.getLast? = some last ∧ last.verdict = .done none) := by
  intro all hs
  have hdt : (prep (o₀.afterwards.nav u.sub) fs).Distinct := prep_distinct _ hsort hread fs hdistinct
  have hname : (prep (o₀.afterwards.nav u.sub) fs).name = fs.name := prep_name _ _
  have hroot : ∀ n : Node, Resumable pre fs.name n.path.dropLast → n.path ≠ u.tree := by
    intro n hr he
    have := hr.below.1.length_le
    rw [he, T.first.tree] at this
    simp at this
    omega
  have hone : ∀ (rep : Report κ) h part save, Episode D.read save u.tree u.sub part h rep → part <:+ all →
      (∀ n, (n, .panic) ∈ rep.answers → Resumable pre fs.name n.path.dropLast) →
      rep.nodes <:+: all ∧ ∀ b ∈ rep.answers.dropLast, b.2 = .ok none := by
    intro rep h part save E hpart hdeep
    refine ⟨E.nodes.isInfix.trans hpart.isInfix, ?_⟩
    rcases episode_cases E (fun n hm => hroot n (hdeep n hm)) with ⟨-, he⟩ | ⟨n, before, rest, k, a, he, -⟩
    · intro b hb
      have hb := (List.dropLast_sublist _).subset hb
      rw [he] at hb
      obtain ⟨m, -, rfl⟩ := List.mem_map.1 hb
      rfl
    · intro b hb
      rw [he, List.dropLast_concat] at hb
      obtain ⟨m, -, rfl⟩ := List.mem_map.1 hb
      rfl
  have hstop : ∀ (rep : Report κ) hs, rep.verdict = .done none → saga (walkOn Q D r settings disk) rep hs = [] := by
    intro rep hs hv
    cases hs <;> simp [saga, hv]
  induction hs with
  | nil =>
    intro rep h part save hsave E hpart hholds reps hdeep
    have hreps : reps = [rep] := rfl
    rw [hreps] at hdeep ⊢
    have hdeep' := hdeep rep (by simp)
    refine ⟨?_, ?_, ?_, ?_⟩
    · intro q hq
      simp only [List.mem_singleton] at hq
      subst hq
      exact hone q h part save E hpart hdeep'
    · intro a b hab
      have := hab.length_le
      simp at this
    · intro last hlast hv n hn
      simp only [List.getLast?_singleton, Option.some.injEq] at hlast
      subst hlast
      rcases episode_cases E (fun n hm => hroot n (hdeep' n hm)) with ⟨-, he⟩ | ⟨m, before, rest, k, a, he, -, hv', -⟩
      · exact ⟨rep, by simp, by rw [he]; exact List.mem_map.2 ⟨n, hn, rfl⟩⟩
      · rw [hv'] at hv; cases hv
    · intro hD g hg hnil
      simp only [List.getLast?_singleton, Option.some.injEq] at hg
      subst hg
      refine ⟨rep, rfl, ?_⟩
      rcases episode_cases E (fun n hm => hroot n (hdeep' n hm)) with ⟨hv, -⟩ | ⟨m, before, rest, k, a, he, -⟩
      · exact hv
      · have := E.accepts hnil (m, .panic) (by rw [he]; simp)
        cases this
  | cons g hs ih =>
    intro rep h part save hsave E hpart hholds reps hdeep
    have hdeep' := hdeep rep (List.mem_cons_self ..)
    rcases episode_cases E (fun n hm => hroot n (hdeep' n hm)) with ⟨hv, he⟩ | ⟨m, before, rest, k, a, he, hpt, hv, hrd, ha1, ha2, ha3⟩
    · have hreps : reps = [rep] := by simp only [reps, hstop rep (g :: hs) hv]
      rw [hreps]
      refine ⟨?_, ?_, ?_, ?_⟩
      · intro q hq
        simp only [List.mem_singleton] at hq
        subst hq
        exact hone q h part save E hpart hdeep'
      · intro a b hab
        have := hab.length_le
        simp at this
      · intro last hlast hv n hn
        exact ⟨rep, by simp, by rw [he]; exact List.mem_map.2 ⟨n, hn, rfl⟩⟩
      · intro hD g hg hnil
        exact ⟨rep, rfl, hv⟩
    · have hmd := hdeep' m (by rw [he]; simp)
      rcases hs' : (save k a).2 with file | e
      · -- the next session
        rw [hs'] at hv
        have hreps : reps = rep :: (walkOn Q D r settings disk g file rep.client ::
            saga (walkOn Q D r settings disk) (walkOn Q D r settings disk g file rep.client) hs) := by
          simp only [reps, saga, hv, Rescue.err]
        have E' := tale_next T hst hsub hsort hread hdistinct (tale_loads T hsave hs' hrd) ha1 ha2 (by rw [ha3]; exact hmd)
          (hholds g (by simp))
        rw [ha3] at E'
        obtain ⟨l₀, hall⟩ := hpart
        rw [hpt, ← List.append_assoc] at hall
        obtain ⟨q, l₂, hq, hdw⟩ := part_covers hdt hall.symm (by rw [hname]; exact hmd.below.1)
        rw [hdw] at E'
        have hsuf : q :: l₂ ++ m :: rest <:+ all := by rw [← hdw]; exact List.dropWhile_suffix _
        rw [hreps] at hdeep ⊢
        obtain ⟨i1, i2, i3, i4⟩ := ih (walkOn Q D r settings disk g file rep.client) g (q :: l₂ ++ m :: rest) o.defects.panic (Or.inr rfl) E' hsuf
          (fun f hf => hholds f (by simp [hf])) (fun b hb => hdeep b (List.mem_cons_of_mem _ hb))
        refine ⟨?_, ?_, ?_, ?_⟩
        · intro b hb
          rcases List.mem_cons.1 hb with rfl | hb
          · exact hone _ h part save E ⟨l₀, by rw [hpt, ← List.append_assoc]; exact hall⟩ hdeep'
          · exact i1 b hb
        · intro a' b' hab
          rcases List.infix_cons_iff.1 hab with hab | hab
          · have h1 := List.cons_prefix_cons.1 hab
            have h2 := List.cons_prefix_cons.1 h1.2
            rw [h1.1, h2.1]
            refine ⟨m, by rw [he]; simp, ?_⟩
            have hne : (walkOn Q D r settings disk g file rep.client).nodes ≠ [] := by
              intro h0
              have hn : (walkOn Q D r settings disk g file rep.client).answers = [] := by
                simpa [Report.nodes, Report.answers] using h0
              have := (E'.ended (by rw [hn]; simp)).1
              rw [h0] at this
              cases this
            obtain ⟨tl, htl⟩ := E'.nodes
            rcases hnn : (walkOn Q D r settings disk g file rep.client).nodes with _ | ⟨q', l'⟩
            · exact absurd hnn hne
            · rw [hnn] at htl
              simp only [List.cons_append, List.cons.injEq] at htl
              rw [htl.1]
              simp [hq]
          · exact i2 a' b' hab
        · intro last hlast hvl n hn
          rw [hpt] at hn
          rcases List.mem_append.1 hn with hn | hn
          · exact ⟨rep, by simp, by rw [he]; exact List.mem_append_left _ (List.mem_map.2 ⟨n, hn, rfl⟩)⟩
          · obtain ⟨b, hb, hbn⟩ := i3 last (by simpa using hlast) hvl n (List.mem_append_right _ hn)
            exact ⟨b, List.mem_cons_of_mem _ hb, hbn⟩
        · intro hD f hf hnil
          obtain ⟨last, hl, hlv⟩ := i4 hD f (by simpa using hf) hnil
          exact ⟨last, by simpa using hl, hlv⟩
      · -- not saved
        rw [hs'] at hv
        have hreps : reps = [rep] := by simp only [reps, saga, hv, Rescue.err]
        rw [hreps]
        refine ⟨?_, ?_, ?_, ?_⟩
        · intro q hq
          simp only [List.mem_singleton] at hq
          subst hq
          exact hone q h part save E hpart hdeep'
        · intro a b hab
          have := hab.length_le
          simp at this
        · intro last hlast hvl
          simp only [List.getLast?_singleton, Option.some.injEq] at hlast
          subst hlast
          rw [hv] at hvl; cases hvl
        · intro hD f hf hnil
          obtain ⟨file, hfile⟩ := tale_sound T hD hsave k a
          rw [hs'] at hfile; cases hfile

/-- The same traversal with a handler that accepts everything. -/
theorem tale_accepting (T : Tale P Q D u settings₀ settings disk o₀ o h₀ r t rr pre fs) :
    Tale P Q D { u with handler := some (fun k _ => (k, .ok none)) } settings₀ settings disk o₀ o (fun k _ => (k, .ok none)) r t rr pre fs :=
  { T with
    first := { T.first with handler := rfl }
    holds := fun _ _ => Or.inl rfl }

/-- **C63** (partial: fastward, and no panic at the root, at the nodes directly inside it, or in a directory named like it;
`C63_false_in_general`) A session whose handler accepts nodes or panics is, after a panic, resumed fastward from the file the error names, with
the next of the handlers `hs`, and so on. `all` is what one uninterrupted session delivers. Then:
each session delivers a contiguous part of `all`, in order, and only its last call can have panicked;
the session after one that panicked at `n` begins with the directory of `n`;
when the last session returns nil, every node of `all` was accepted in some session;
and it does return nil if its handler accepts everything and saving does not fail. -/
theorem C63_fastward_partial (T : Tale P Q D u settings₀ settings disk o₀ o h₀ r t rr pre fs) (hst : r.strategy = .fastward)
    (hsub : u.sub ≠ .files) (hsort : SortPermutes (o₀.afterwards.nav u.sub)) (hread : ReadSelects (o₀.afterwards.nav u.sub))
    (hdistinct : fs.Distinct) (hs : List (κ → Parcel → κ × Reply)) (hholds : ∀ h ∈ hs, Handler.Holds h) (x : κ) :
    let all := (walkPrime P (.using { u with handler := some (fun k _ => (k, .ok none)) }) settings₀ disk x).nodes
    let first := walkPrime P (.using u) settings₀ disk x
    let reps := first :: saga (walkOn Q D r settings disk) first hs
    (∀ q ∈ reps, ∀ n, (n, .panic) ∈ q.answers → Resumable pre fs.name n.path.dropLast) →
    (∀ q ∈ reps, q.nodes <:+: all ∧ ∀ b ∈ q.answers.dropLast, b.2 = .ok none) ∧
    (∀ a b, [a, b] <:+: reps → ∃ n, a.answers.getLast? = some (n, .panic) ∧ (b.nodes.head?).map (·.path) = some n.path.dropLast) ∧
    (∀ last, reps.getLast? = some last → last.verdict = .done none → ∀ n ∈ all, ∃ q ∈ reps, (n, .ok none) ∈ q.answers) ∧
    (D.Sound → ∀ h, (h₀ :: hs).getLast? = some h → Handler.Nil h → ∃ last, reps.getLast? = some last ∧ last.verdict = .done none) := by
  intro all first reps
  have hall : all = (items (o₀.afterwards.nav u.sub) [] pre 0 (prep (o₀.afterwards.nav u.sub) fs)).map (·.node) := by
    have E := tale_first (tale_accepting T) hsub hsort hread hdistinct x
    refine (E.ended ?_).1
    intro n hm
    have := E.accepts (fun _ _ => rfl) _ hm
    cases this
  rw [hall]
  exact saga_chapters T hst hsub hsort hread hdistinct hs first h₀ _ o₀.defects.panic (Or.inl rfl)
    (tale_first T hsub hsort hread hdistinct x) List.suffix_rfl hholds

/-- **C63** (partial: spawn, one interruption, Universal, not at the root or directly inside it, and only where the directories on the way
visit their entries in the order of the bytes of their names; `C63_false_in_general`) A session is interrupted by a panic at `n`, saved in
`file`, and resumed by spawning from `file` with a handler that accepts everything. The resume returns nil and is complete; it delivers
exactly what one uninterrupted session delivers from the directory of `n` on; and every node of the uninterrupted session was accepted in
the first session or delivered in the second. -/
theorem C63_spawn_partial (T : Tale P Q D u settings₀ settings disk o₀ o h₀ r t rr pre fs) {key : String → String}
    (hst : r.strategy = .spawn) (hsub : u.sub = .universal) (hp₀ : o₀.Plain key) (hp : o.Plain key)
    (hdisk : ∀ p g, FS.At pre fs p g → disk p = .ok g) (hdistinct : fs.Distinct) (hkeys : fs.KeysDiffer key)
    (h : κ → Parcel → κ × Reply) (hnil : Handler.Nil h) (file : String) (x : κ) (n : Node) :
    let all := (walkPrime P (.using { u with handler := some (fun k _ => (k, .ok none)) }) settings₀ disk x).calls
    let first := walkPrime P (.using u) settings₀ disk x
    let next := walkOn Q D r settings disk h file first.client
    first.verdict = .done (some (.saved file)) → (n, .panic) ∈ first.answers → Above u.tree n.path.dropLast →
    ByteOrdered (o₀.afterwards.nav .universal) pre fs n.path.dropLast →
    next.verdict = .done none ∧ next.complete = true ∧ next.calls = all.dropWhile (fun k => k.1 != n.path.dropLast) ∧
    ∀ k ∈ all, (∃ m, (m, .ok none) ∈ first.answers ∧ (m.path, m.isDir) = k) ∨ k ∈ next.calls := by
  intro all first next hv hm hdeep hbo
  obtain ⟨n1, n2, n3, n4⟩ := plain_nav hp₀ u.sub
  have hsort := n3.permutes
  have hread := defaultRead_selects _ n2
  have hsf : u.sub ≠ .files := by simp [hsub]
  have E := tale_first T hsf hsort hread hdistinct x
  have hd0 : disk u.tree = .ok fs := T.first.disk
  have hnr : n.path ≠ u.tree := by
    intro he
    have := hdeep.1.length_le
    rw [he, List.length_dropLast, T.first.tree] at this
    simp at this
    omega
  -- what is saved
  obtain ⟨before, k, a, b1, b2, b3, b4, b5, b6, b7⟩ := E.broken n hm hnr
  have hs' : (o₀.defects.panic k a).2 = .saved file := by
    rw [show (walkPrime P (.using u) settings₀ disk x).verdict = _ from hv] at b3
    cases hc : (o₀.defects.panic k a).2 with
    | saved f => rw [hc] at b3; simp only [Rescue.err, Verdict.done.injEq, Option.some.injEq, Err.saved.injEq] at b3; rw [b3]
    | failed e => rw [hc] at b3; simp [Rescue.err] at b3
  obtain ⟨o', hl, ho⟩ := tale_loads T (Or.inl rfl) hs' b4
  -- the uninterrupted session
  have EA := tale_first (tale_accepting T) hsf hsort hread hdistinct x
  have hall : (walkPrime P (.using { u with handler := some (fun k _ => (k, .ok none)) }) settings₀ disk x).nodes =
      (items (o₀.afterwards.nav u.sub) [] pre 0 (prep (o₀.afterwards.nav u.sub) fs)).map (·.node) :=
    (EA.ended (fun n hm => by have := EA.accepts (fun _ _ => rfl) _ hm; cases this)).1
  have hcalls : ∀ rep : Report κ, rep.calls = rep.nodes.map (fun m => (m.path, m.isDir)) := by
    intro rep; simp [Report.calls, Report.nodes, Function.comp_def]
  have hlist := (plain_primary (x := x) (u := { u with handler := some (fun k _ => (k, .ok none)) }) T.first.noOptions T.first.options hp₀
    T.first.sub rfl (fun _ _ => rfl) T.first.tree hd0 hdistinct).2
  -- the first session is a prefix
  have hE := episode_cases E (fun m hm' => by
    intro he
    have hb : (m, Reply.panic) ∈ before ++ [(n, .panic)] := by rw [← b1]; exact hm'
    rcases List.mem_append.1 hb with hb | hb
    · exact b2 _ hb rfl
    · simp only [List.mem_singleton, Prod.mk.injEq, and_true] at hb
      exact hnr (by rw [← hb]; exact he))
  rcases hE with ⟨hv', -⟩ | ⟨m, bs, rest, -, -, he, hpt, -⟩
  · rw [show (walkPrime P (.using u) settings₀ disk x).verdict = _ from hv] at hv'; cases hv'
  have hmn : n = m := by
    rw [b1] at he
    have := congrArg List.getLast? he
    simpa using this
  subst hmn
  have hdt : (prep (o₀.afterwards.nav u.sub) fs).Distinct := prep_distinct _ hsort hread fs hdistinct
  have hname : (prep (o₀.afterwards.nav u.sub) fs).name = fs.name := prep_name _ _
  obtain ⟨q, l₂, hq, hdw⟩ := part_covers hdt hpt (by rw [hname, ← T.first.tree]; exact hdeep.1)
  have hqm : q ∈ (items (o₀.afterwards.nav u.sub) [] pre 0 (prep (o₀.afterwards.nav u.sub) fs)).map (·.node) :=
    (List.dropWhile_sublist _).subset (by rw [hdw]; simp)
  have hpath : a.currentPath ∈ (fs.nodes pre).map Prod.fst := by
    rw [b7, ← hq]
    obtain ⟨it, hit, rfl⟩ := List.mem_map.1 hqm
    have := (items_nodes _ hsort n2 n1 (by rw [n4, hsub]; decide) (by rw [n4, hsub]; decide) fs [] pre 0).subset
      (List.mem_map.2 ⟨it, hit, rfl⟩)
    exact List.mem_map.2 ⟨_, this, rfl⟩
  let r' : Relic κ := { r with handler := some h, «from» := file }
  have hsys : r'.systems a.tree = some (t, rr) := by
    have hs := T.systems
    unfold Relic.Systems at hs
    rw [← b5] at hs
    simp only [Relic.systems, r']
    cases hf : r.forest with
    | none => simp only [hf] at hs; simp [hs]
    | some f => simp only [hf] at hs; exact hs
  obtain ⟨R, c1, c2, c3, -, c5, -⟩ := spawn_core (x := first.client) (r := r') (files := D.read first.client) (s := ⟨a, t, rr⟩) (h := h)
    hl ho hp hsys hst rfl hnil (by rw [b5]; exact T.first.tree) (Or.inl (by rw [b6]; exact hsub)) hdisk hdistinct hkeys hpath
    (by rw [b7, ← T.first.tree]; exact fun he => hdeep.2 he.symm)
  have hnav : o.afterwards.nav a.sub = o₀.afterwards.nav u.sub := by rw [b6, T.same]
  simp only [hnav] at c3 c5
  have hsh : ∀ l : List (Path × Bool), l.filter (shows (o₀.afterwards.nav u.sub)) = l := by
    intro l; rw [List.filter_eq_self]; intro a _; simp [shows, Options.nav, hsub]
  rw [hsh] at c3
  have hnext : next.calls = all.dropWhile (fun k => k.1 != n.path.dropLast) := by
    rw [show next.calls = R from c3, c5 (by rw [b7, hsub]; exact hbo), b7]
    show _ = List.dropWhile _ (walkPrime P (.using { u with handler := some (fun k _ => (k, .ok none)) }) settings₀ disk x).calls
    rw [hlist]
    simp only [hsh]
  refine ⟨c1, c2, hnext, fun k hk => ?_⟩
  have hkm : k ∈ ((items (o₀.afterwards.nav u.sub) [] pre 0 (prep (o₀.afterwards.nav u.sub) fs)).map (·.node)).map (fun m => (m.path, m.isDir)) := by
    rw [← hall, ← hcalls]; exact hk
  rw [hpt] at hkm
  obtain ⟨m', hm', rfl⟩ := List.mem_map.1 hkm
  rcases List.mem_append.1 hm' with hm' | hm'
  · exact Or.inl ⟨m', by rw [show first.answers = _ from he]; exact List.mem_append_left _ (List.mem_map.2 ⟨m', hm', rfl⟩), rfl⟩
  · refine Or.inr ?_
    rw [hnext]
    show _ ∈ List.dropWhile _ (walkPrime P (.using { u with handler := some (fun k _ => (k, .ok none)) }) settings₀ disk x).calls
    rw [hcalls, hall]
    have hkey : (fun k : Path × Bool => k.1 != n.path.dropLast) = fun k => !decide (k.1 = n.path.dropLast) := by
      funext k; by_cases hk : k.1 = n.path.dropLast <;> simp [hk]
    rw [hkey]
    rw [← map_dropWhile_key (fun m : Node => (m.path, m.isDir)) (fun k : Path × Bool => !decide (k.1 = n.path.dropLast)), hdw]
    exact List.mem_map.2 ⟨m', List.mem_append_right _ hm', rfl⟩

end

/-! ### Cases -/

/-- A drive that is a list of files. -/
def Demo.drive : Drive (List (String × Json)) where
  resolve s := s
  join a b := a ++ "/" ++ b
  tail := "resume"
  stamp k := String.ofList (List.replicate k.length 'i')
  makeDirAll k _ := (k, none)
  write k p j := ((p, j) :: k, none)
  read k p := match k.find? (fun f => f.1 == p) with
    | some f => .ok f.2
    | none => .error (.code 2)

/-- The platform, with the author as panic handler. -/
def Demo.host (mag : String) : Platform (List (String × Json)) where
  cpus := 4
  engine := toyEngine
  sortSlice := insertSort
  save := Demo.drive.author mag (defaultOptions ⟨4, toyEngine, insertSort, fun k _ => (k, .saved "")⟩) false false

/-- A handler that panics at one of these paths. -/
def Demo.panicAt (ps : List Path) : List (String × Json) → Parcel → List (String × Json) × Reply :=
  fun k p => (k, if p.node.path ∈ ps then .panic else .ok none)

/-- The facades. -/
def Demo.opening (sub : Subscription) (ps : List Path) : Using (List (String × Json)) where
  tree := ["r"]
  sub := sub
  handler := some (Demo.panicAt ps)

theorem Demo.panicAt_holds (ps) : Handler.Holds (Demo.panicAt ps) := by
  intro k p
  simp only [Demo.panicAt]
  split
  · exact Or.inr rfl
  · exact Or.inl rfl

theorem Demo.tale (sub : Subscription) (hsub : sub ≠ .undefined) (ps : List Path) (strategy : Strategy) :
    Tale (Demo.host "prime") (Demo.host "resume") Demo.drive (Demo.opening sub ps) [] [] (diskOf [] Demo.fs)
      (defaultOptions (Demo.host "prime")) (defaultOptions (Demo.host "resume")) (Demo.panicAt ps) { strategy := strategy } false false [] Demo.fs where
  first := ⟨rfl, rfl, ⟨rfl, rfl, rfl, rfl, rfl, rfl, rfl⟩, hsub, rfl, rfl, diskOf_holds Demo.distinct _ _ (.here [] Demo.fs), fun _ => rfl⟩
  holds := Demo.panicAt_holds ps
  author₀ := rfl
  skip₀ _ _ _ := rfl
  quiet₀ k n p := by cases n <;> rfl
  load₀ a doc hd := by
    obtain ⟨doc', h1, h2⟩ := roundTrip (Demo.host "resume") (defaultOptions (Demo.host "prime")).afterwards ⟨a, false, false⟩
    rw [h1] at hd
    cases hd
    exact ⟨_, h2, rfl⟩
  load a doc hd := by
    obtain ⟨doc', h1, h2⟩ := roundTrip (Demo.host "resume") (defaultOptions (Demo.host "resume")).afterwards ⟨a, false, false⟩
    rw [h1] at hd
    cases hd
    exact ⟨_, h2, rfl⟩
  bare := ⟨rfl, rfl, rfl, rfl, rfl, rfl, rfl⟩
  author := rfl
  skip _ _ _ := rfl
  quiet k n p := by cases n <;> rfl
  status _ := rfl
  systems := ⟨rfl, rfl⟩
  same := rfl
  keeps k p j k' hw := by
    simp only [Demo.drive, Prod.mk.injEq, and_true] at hw
    subst hw
    simp [Demo.drive]

/-- The sessions of the demo: the paths delivered and the verdict of each. -/
def Demo.history (sub : Subscription) (fs : FS) (strategy : Strategy) (p₀ : List Path) (ps : List (List Path)) : List (List Path × Verdict × Bool) :=
  let first := walkPrime (Demo.host "prime") (.using (Demo.opening sub p₀)) [] (diskOf [] fs) []
  (first :: saga (walkOn (Demo.host "resume") Demo.drive { strategy := strategy } [] (diskOf [] fs)) first (ps.map Demo.panicAt)).map
    (fun rep => (rep.nodes.map (·.path), rep.verdict, rep.complete))

/-- Not vacuous: a session that panics at /r/a/b/z, a resume that panics at /r/c/w, and one that does not. -/
example :
    (∀ sub, sub ≠ .undefined → ∀ ps strategy,
      Tale (Demo.host "prime") (Demo.host "resume") Demo.drive (Demo.opening sub ps) [] [] (diskOf [] Demo.fs)
        (defaultOptions (Demo.host "prime")) (defaultOptions (Demo.host "resume")) (Demo.panicAt ps) { strategy := strategy } false false [] Demo.fs) ∧
    (∀ ps, Handler.Holds (Demo.panicAt ps)) ∧ Handler.Nil (Demo.panicAt []) ∧ Demo.drive.Sound ∧
    SortPermutes ((defaultOptions (Demo.host "prime")).afterwards.nav .universal) ∧
    ReadSelects ((defaultOptions (Demo.host "prime")).afterwards.nav .universal) ∧
    Resumable [] Demo.fs.name ["r", "a", "b"] ∧ Resumable [] Demo.fs.name ["r", "c"] ∧
    Demo.history .universal Demo.fs .fastward [["r", "a", "b", "z"]] [[["r", "c", "w"]], [], []] =
      [([["r"], ["r", "a"], ["r", "a", "b"], ["r", "a", "b", "y"], ["r", "a", "b", "z"]],
          .done (some (.saved "~/agenor/admin/resume/prime.panic..json")), true),
       ([["r", "a", "b"], ["r", "a", "b", "y"], ["r", "a", "b", "z"], ["r", "a", "x"], ["r", "c"], ["r", "c", "w"]],
          .done (some (.saved "~/agenor/admin/resume/resume.panic.i.json")), true),
       ([["r", "c"], ["r", "c", "w"], ["r", "f"], ["r", "g"]], .done none, true)] ∧
    Demo.history .universal Demo.fs .spawn [["r", "a", "b", "z"]] [[], []] =
      [([["r"], ["r", "a"], ["r", "a", "b"], ["r", "a", "b", "y"], ["r", "a", "b", "z"]],
          .done (some (.saved "~/agenor/admin/resume/prime.panic..json")), true),
       ([["r", "a", "b"], ["r", "a", "b", "y"], ["r", "a", "b", "z"], ["r", "a", "x"], ["r", "c"], ["r", "c", "w"], ["r", "f"], ["r", "g"]],
          .done none, true)] := by
  refine ⟨Demo.tale, Demo.panicAt_holds, fun _ _ => rfl, ⟨fun _ _ => rfl, fun _ _ _ => rfl⟩, fun l => (insertSort_sorts _ l).1,
    defaultRead_selects _ rfl, ⟨by decide +kernel, by decide +kernel⟩, ⟨by decide +kernel, by decide +kernel⟩, ?_, ?_⟩
  all_goals decide +kernel

/-- **C63 is false** of the code in general. A panic at a node directly inside the root: the spawning resume delivers nothing, returns nil and
says it is complete, so /r/f and /r/g are lost; the fastward resume panics. With the Files subscription the fastward resume delivers nothing
and returns nil. A directory z that comes before a file a: the spawning resume after a panic at /r/z/q never delivers a. A
panic at the root: nothing is saved. -/
theorem C63_false_in_general :
    Demo.history .universal Demo.fs .spawn [["r", "f"]] [[]] =
      [([["r"], ["r", "a"], ["r", "a", "b"], ["r", "a", "b", "y"], ["r", "a", "b", "z"], ["r", "a", "x"], ["r", "c"], ["r", "c", "w"], ["r", "f"]],
          .done (some (.saved "~/agenor/admin/resume/prime.panic..json")), true), ([], .done none, true)] ∧
    ((Demo.history .universal Demo.fs .fastward [["r", "f"]] [[]]).map (·.2.1) =
      [.done (some (.saved "~/agenor/admin/resume/prime.panic..json")), .panic]) ∧
    Demo.history .files Demo.fs .fastward [["r", "a", "x"]] [[]] =
      [([["r", "a", "b", "y"], ["r", "a", "b", "z"], ["r", "a", "x"]], .done (some (.saved "~/agenor/admin/resume/prime.panic..json")), true),
        ([], .done none, true)] ∧
    Demo.history .universal Demo.fsZ .spawn [["r", "z", "q"]] [[]] =
      [([["r"], ["r", "z"], ["r", "z", "p"], ["r", "z", "q"]], .done (some (.saved "~/agenor/admin/resume/prime.panic..json")), true),
        ([["r", "z"], ["r", "z", "p"], ["r", "z", "q"]], .done none, true)] ∧
    Demo.history .universal Demo.fs .fastward [["r"]] [[]] = [([["r"]], .panic, false)] := by
  decide +kernel

end Traverse
