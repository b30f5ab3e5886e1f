import Verif.Props.SkipHandler
/-
C14 for spawn resumes: what a resume would navigate from is listed, but its status cannot be queried.
-/
namespace Traverse
variable {κ σ τ : Type}

/-- Where the navigation that led to the node started: the last of its Parents, or the node itself. -/
def Node.start (n : Node) : Path := match n.parents.getLast? with
  | some q => q.path
  | none => n.path

theorem items_start {c : Nav} {t : Tree} (hwf : t.WF) {pp : Path} {d : Int} {it : Item} (hit : it ∈ items c [] pp d t) :
    it.node.start = pp ++ [t.name] := by
  have hl := items_lineage hwf hit
  have hc := hl.count
  unfold Node.start
  cases hq : it.node.parents.getLast? with
  | none =>
    rw [List.getLast?_eq_none_iff] at hq
    rw [hq] at hc
    exact (hl.below.eq_of_length (by simpa using hc)).symm
  | some q =>
    rw [List.getLast?_eq_getElem?] at hq
    obtain ⟨e1, -, -⟩ := hl.each _ q hq
    have hlt := (List.getElem?_eq_some_iff.1 hq).1
    show q.path = _
    rw [e1]
    have := List.prefix_iff_eq_take.1 hl.below
    rw [this]
    congr 1
    omega

theorem following_same {c : Nav} {disk disk0 : Disk} {p : Path} (h : disk p = disk0 p) (anchor incl) :
    following c disk p anchor incl = following c disk0 p anchor incl := by
  simp only [following, Disk.list, h]

theorem legsOf_congr {c : Nav} {disk disk0 : Disk} (tree : Path) : ∀ (rcur : List String) (incl : Bool),
    (∀ p, Above p rcur.reverse → disk p = disk0 p) → legsOf c disk tree rcur incl = legsOf c disk0 tree rcur incl
  | [], _, _ => rfl
  | child :: rparent, incl, h => by
    have h1 : disk rparent.reverse = disk0 rparent.reverse := h _ ⟨by simp, by
      intro he; have := congrArg List.length he; simp at this⟩
    have ih := legsOf_congr (c := c) (disk := disk) (disk0 := disk0) tree rparent false (fun p hp => h p ⟨hp.1.trans (by simp), by
      intro he
      have := hp.1.length_le
      rw [he] at this
      simp at this; omega⟩)
    rw [legsOf, legsOf, following_same h1, ih]

/-- What is left of a run if some places to navigate from are gone. -/
def StillThere (stat : Path → RootStat) (n : Node) : Bool := match stat n.start with
  | .error _ => false
  | .found _ => true

theorem legs_gone {c : Nav} {env : Env σ} {env0 : Env τ} {fault fault0} {stat stat0 : Path → RootStat} (hsort : SortPermutes c) (hread : c.read = defaultRead)
    (hstat : ∀ p t, stat0 p = .found t → ∃ f : FS, t = prep c f ∧ f.Distinct ∧ p.getLast? = some t.name)
    (hsame : ∀ p, stat p = stat0 p ∨ ∃ e, stat p = .error e)
    (hnil : AlwaysNil env) (hskip : DefaultSkip env) (hnil0 : AlwaysNil env0) (hskip0 : DefaultSkip env0)
    (f : Path → Err → Option Err) (hfault : ∀ k p e, (fault k p e).2 = f p e) (legs : List (Path × String)) :
    ∀ (s : St σ) (s0 : St τ), s.depth = s0.depth → (∀ ev ∈ s.log, EvFrom env ev) → (∀ ev ∈ s0.log, EvFrom env0 ev) →
    (goLegs c env0 fault0 stat0 legs s0).1 = .done none →
    ∃ v v0, (goLegs c env fault stat legs s).2.log = s.log ++ v ∧ (goLegs c env0 fault0 stat0 legs s0).2.log = s0.log ++ v0 ∧
      ((invoked v = (invoked v0).filter (StillThere stat) ∧ (goLegs c env fault stat legs s).1 = .done none ∧
          ∀ l ∈ legs, ∀ e, stat (l.1 ++ [l.2]) = .error e → f (l.1 ++ [l.2]) e = none) ∨
        ∃ l ∈ legs, ∃ e e', stat (l.1 ++ [l.2]) = .error e ∧ f (l.1 ++ [l.2]) e = some e' ∧
          (goLegs c env fault stat legs s).1 = .done (some e') ∧ invoked v <+: (invoked v0).filter (StillThere stat)) := by
  induction legs with
  | nil =>
    intro s s0 _ _ _ _
    exact ⟨[], [], by simp [goLegs], by simp [goLegs], .inl ⟨by simp [invoked, calls], rfl, by simp⟩⟩
  | cons l ls ih =>
    intro s s0 hd hs hs0 hdone
    -- what one navigation does
    have one : ∃ v v0, (top c env fault l.1 (l.1 ++ [l.2]) (stat (l.1 ++ [l.2])) s).2.log = s.log ++ v ∧
        (top c env0 fault0 l.1 (l.1 ++ [l.2]) (stat0 (l.1 ++ [l.2])) s0).2.log = s0.log ++ v0 ∧
        (top c env fault l.1 (l.1 ++ [l.2]) (stat (l.1 ++ [l.2])) s).2.depth = s.depth ∧
        (top c env0 fault0 l.1 (l.1 ++ [l.2]) (stat0 (l.1 ++ [l.2])) s0).2.depth = s0.depth ∧
        (∀ ev ∈ (top c env fault l.1 (l.1 ++ [l.2]) (stat (l.1 ++ [l.2])) s).2.log, EvFrom env ev) ∧
        (∀ ev ∈ (top c env0 fault0 l.1 (l.1 ++ [l.2]) (stat0 (l.1 ++ [l.2])) s0).2.log, EvFrom env0 ev) ∧
        invoked v = (invoked v0).filter (StillThere stat) ∧
        (match stat (l.1 ++ [l.2]) with
          | .error e => (top c env fault l.1 (l.1 ++ [l.2]) (stat (l.1 ++ [l.2])) s).1 = .done (f (l.1 ++ [l.2]) e)
          | .found _ => (top c env fault l.1 (l.1 ++ [l.2]) (stat (l.1 ++ [l.2])) s).1 = .done none) := by
      have hstarts : ∀ t, stat0 (l.1 ++ [l.2]) = .found t → ∃ v0, (traverse c env0 [] l.1 t s0).2.log = s0.log ++ v0 ∧
          (traverse c env0 [] l.1 t s0).2.depth = s0.depth ∧ ∀ n ∈ invoked v0, n.start = l.1 ++ [l.2] := by
        intro t ht
        obtain ⟨fs, rfl, hdf, hname⟩ := hstat _ _ ht
        obtain ⟨v0, k1, k2, k3⟩ := traverse_leg c env0 l.1 (prep c fs) s0
        refine ⟨v0, k1, k2, fun n hn => ?_⟩
        obtain ⟨it, hit, rfl⟩ := List.mem_map.1 (k3.list.subset hn)
        have hn' : l.2 = (prep c fs).name := by simpa using hname
        rw [items_start (prep_wf _ hsort (defaultRead_selects _ hread) fs) hit, hn']
      cases hst : stat (l.1 ++ [l.2]) with
      | error e =>
        cases hst0 : stat0 (l.1 ++ [l.2]) with
        | error e0 =>
          exact ⟨[], [], by simp [top], by simp [top], by simp [top], by simp [top], by simpa [top] using hs, by simpa [top] using hs0,
            by simp [invoked, calls], by simp [top, hfault]⟩
        | found t =>
          obtain ⟨v0, k1, k2, k3⟩ := hstarts t hst0
          refine ⟨[], v0, by simp [top], by simpa [top] using k1, by simp [top], by simpa [top] using k2, by simpa [top] using hs,
            by simp only [top]; exact log_from c env0 t [] l.1 s0 hs0, ?_, by simp [top, hfault]⟩
          rw [List.filter_eq_nil_iff.2 (fun n hn => by simp [StillThere, k3 n hn, hst])]
          rfl
      | found t =>
        have hst0 : stat0 (l.1 ++ [l.2]) = .found t := by
          rcases hsame (l.1 ++ [l.2]) with h | ⟨e, h⟩
          · rw [← h, hst]
          · rw [hst] at h; cases h
        rw [hst0]
        obtain ⟨fs, hfs, hdf, hname⟩ := hstat _ _ hst0
        obtain ⟨v, v0, h1, h2, h3, h4, h5, h6, h7, h8⟩ := top_left (c := c) (env := env) (env0 := env0) (fault := fun k _ _ => (k, none))
          (fault0 := fun k _ _ => (k, none)) (stat := fun _ => .found t) hsort hread (fun p t' hs => ⟨fs, by cases hs; exact hfs, hdf⟩) (fun _ => .none)
          hnil hskip hnil0 hskip0 (fun _ _ _ _ => rfl) l.1 (l.1 ++ [l.2]) s s0 hd hs hs0
        obtain ⟨v0', k1, -, k3⟩ := hstarts t hst0
        have hv0 : v0' = v0 := by
          have h2' : (traverse c env0 [] l.1 t s0).2.log = s0.log ++ v0 := h2
          rw [k1] at h2'
          exact List.append_cancel_left h2'
        subst hv0
        refine ⟨v, v0', h1, h2, h3, h4, h5, h6, ?_, ?_⟩
        · rw [h7, List.filter_eq_self.2 (by simp [Lets]), List.filter_eq_self.2 (fun n hn => by simp [StillThere, k3 n hn, hst])]
        · cases htd : tooDeep c s.depth with
          | true =>
            clear h1 h2 h3 h4 h5 h6 h7 h8 k1 hst hst0 hfs hname
            cases t
            simp only [top, traverse, htd, if_true]
            rfl
          | false =>
            obtain ⟨vs, -, g2, g3⟩ := top_run c env l.1 t s htd
            have hsel := defaultRead_selects _ hread
            have hdist : t.Distinct := by rw [hfs]; exact prep_distinct _ hsort hsel fs hdf
            have hwf : t.WF := by rw [hfs]; exact prep_wf _ hsort hsel fs
            have hshut := items0_shut c hsort hread fs hdf [] l.1 s.depth
            rw [← hfs] at hshut
            have hall := log_from c env t [] l.1 s hs
            have hmem : ∀ ev ∈ vs, ev ∈ (traverse c env [] l.1 t s).2.log := by
              intro ev hev
              exact mem_acts (by rw [g2]; exact List.mem_append_right _ hev)
            exact (g3.accepting (by
                intro n q hm
                obtain ⟨y, hy⟩ := hall _ (hmem _ hm)
                rw [← hy]; exact hnil y n) (by
                intro n re sk e hm
                obtain ⟨y, hy⟩ := hall _ (hmem _ hm)
                have := hskip y n re
                rw [hy] at this
                simpa using this) (fun _ => hshut) (fun _ => items_leaf c t hwf hdist [] l.1 s.depth)
                (items_preOrder c t hdist [] l.1 s.depth) (items_depth c t [] l.1 s.depth) (items_root c t [] l.1 s.depth)).2
    obtain ⟨v, v0, h1, h2, h3, h4, h5, h6, h7, h8⟩ := one
    simp only [goLegs] at hdone ⊢
    rcases ht : top c env fault l.1 (l.1 ++ [l.2]) (stat (l.1 ++ [l.2])) s with ⟨r, s1⟩
    rcases ht0 : top c env0 fault0 l.1 (l.1 ++ [l.2]) (stat0 (l.1 ++ [l.2])) s0 with ⟨r0, t1⟩
    rw [ht] at h1 h3 h5 h8
    rw [ht0] at h2 h4 h6 hdone
    simp only at h1 h2 h3 h4 h5 h6 h8 hdone
    rcases r0 with (_ | e0) | _
    · obtain ⟨w, w0, g1, g2, g3⟩ := ih s1 t1 (by rw [h3, h4, hd]) h5 h6 hdone
      have go : r = .done none → (∀ e, stat (l.1 ++ [l.2]) = .error e → f (l.1 ++ [l.2]) e = none) → ∃ v v0,
          (goLegs c env fault stat ls s1).2.log = s.log ++ v ∧ (goLegs c env0 fault0 stat0 ls t1).2.log = s0.log ++ v0 ∧
          ((invoked v = (invoked v0).filter (StillThere stat) ∧ (goLegs c env fault stat ls s1).1 = .done none ∧
            ∀ l' ∈ l :: ls, ∀ e, stat (l'.1 ++ [l'.2]) = .error e → f (l'.1 ++ [l'.2]) e = none) ∨
          ∃ l' ∈ l :: ls, ∃ e e', stat (l'.1 ++ [l'.2]) = .error e ∧ f (l'.1 ++ [l'.2]) e = some e' ∧
            (goLegs c env fault stat ls s1).1 = .done (some e') ∧ invoked v <+: (invoked v0).filter (StillThere stat)) := by
        intro hr hno
        refine ⟨v ++ w, v0 ++ w0, by rw [g1, h1, List.append_assoc], by rw [g2, h2, List.append_assoc], ?_⟩
        rcases g3 with ⟨a1, a2, a3⟩ | ⟨l', hl', e, e', b1, b2, b3, b4⟩
        · refine .inl ⟨by rw [invoked_append', invoked_append', List.filter_append, ← h7, ← a1], a2, ?_⟩
          intro l' hl' e he
          rcases List.mem_cons.1 hl' with rfl | hl'
          · exact hno e he
          · exact a3 l' hl' e he
        · refine .inr ⟨l', by simp [hl'], e, e', b1, b2, b3, ?_⟩
          rw [invoked_append', invoked_append', List.filter_append, ← h7]
          exact (List.prefix_append_right_inj _).2 b4
      cases hst : stat (l.1 ++ [l.2]) with
      | found t =>
        rw [hst] at h8
        have := go h8 (fun e he => by rw [hst] at he; cases he)
        simp only at h8
        subst h8
        exact this
      | error e =>
        rw [hst] at h8
        simp only at h8
        cases hfe : f (l.1 ++ [l.2]) e with
        | none =>
          rw [hfe] at h8
          have := go h8 (fun e' he => by rw [hst] at he; cases he; exact hfe)
          subst h8
          exact this
        | some e' =>
          rw [hfe] at h8
          subst h8
          refine ⟨v, v0 ++ w0, h1, by rw [g2, h2, List.append_assoc], .inr ⟨l, by simp, e, e', hst, hfe, rfl, ?_⟩⟩
          rw [invoked_append', List.filter_append, ← h7]
          exact List.prefix_append _ _
    · cases hdone
    · cases hdone

/-- **C14** (spawn) A spawn resume navigates from the saved path and from what comes after it, as the directories on the way to the tree
list it. `disk₀` has all of that; on `disk` the status of some of it cannot be queried. The fault handler answers by path and error. If
all of the resume on `disk₀` returns nil, then on `disk`
- either the fault handler answers nil for all that is missing, and the resume returns nil, is complete, and delivers what it delivers on
  `disk₀` except what was reached from what is missing;
- or it answers with an error for some of it: Navigate returns that error, the session says it is incomplete, and what was delivered is an
  initial part of the above. -/
theorem C14_spawn (P : Platform κ) (r : Relic κ) (settings : List (Option (Setting κ))) (files : String → Except Err Json)
    (disk disk₀ : Disk) (o : Options κ) (h : κ → Parcel → κ × Reply) (a : Active) (pre : Path) (fs : FS)
    (hplat : resumePlatform P r settings (files r.from) = .ok (o, a)) (hst : r.strategy = .spawn) (hh : r.handler = some h)
    (hb : o.Bare) (hu : o.Usual) (answer : Path → Err → Option Err) (hfault : ∀ k p e, (o.defects.fault k p e).2 = answer p e)
    (hsub : a.sub ≠ .undefined) (hin : Within disk₀ o pre fs) (hdistinct : fs.Distinct) (hnil : Handler.Nil h)
    (hsame : ∀ p, disk p = disk₀ p ∨ ∃ e, disk p = .error e) (hways : ∀ p, Above p a.currentPath → disk p = disk₀ p) (x x' : κ) :
    let rep := walkResume P (.relic r) settings files disk x
    let all := walkResume P (.relic r) settings files disk₀ x'
    let kept := all.nodes.filter (fun n => match disk n.start with | .error _ => false | .ok _ => true)
    all.verdict = .done none → all.complete = true →
    (rep.nodes = kept ∧ rep.verdict = .done none ∧ rep.complete = true) ∨
    ∃ p e e', disk p = .error e ∧ answer p e = some e' ∧ rep.verdict = .done (some e') ∧ rep.complete = false ∧ rep.nodes <+: kept := by
  intro rep all kept hv0 hc0
  obtain ⟨w, h1, h2, h3, h4⟩ := sprout_run (disk := disk) hplat hst hh hb hsub x
  obtain ⟨w0, k1, k2, k3, k4⟩ := sprout_run (disk := disk₀) hplat hst hh hb hsub x'
  have hlegs := legsOf_congr (c := (sproutSetup o a.sub).nav) (disk := disk) (disk0 := disk₀) a.tree a.currentPath.reverse true (by simpa using hways)
  rw [hlegs] at h1 h2 h3 h4
  have hsort : SortPermutes (sproutSetup o a.sub).nav := usual_sort hu _
  have hread : (sproutSetup o a.sub).nav.read = defaultRead := usual_read hu _
  have hin' : Within disk₀ o.afterwards pre fs := ⟨hin.part, hin.status⟩
  have hstat : ∀ (d : Disk) p, statOf (sproutSetup o a.sub).nav o.afterwards d p = match d p with
      | .error e => .error e
      | .ok f => .found (prep (sproutSetup o a.sub).nav f) := by
    intro d p
    unfold statOf
    rw [hin'.status]
    rfl
  have hkept : ∀ n, StillThere (statOf (sproutSetup o a.sub).nav o.afterwards disk) n = match disk n.start with | .error _ => false | .ok _ => true := by
    intro n
    unfold StillThere
    rw [hstat]
    cases disk n.start <;> rfl
  generalize hG0 : goLegs (sproutSetup o a.sub).nav (bareEnv (sproutSetup o a.sub) (o.client h) a.tree) o.fault
    (statOf (sproutSetup o a.sub).nav o.afterwards disk₀) (legsOf (sproutSetup o a.sub).nav disk₀ a.tree a.currentPath.reverse true).1
    ⟨a.depth, w0, []⟩ = G0 at *
  have hd0 : G0.1 = .done none := by
    rcases G0 with ⟨(_ | e) | _, s⟩
    · rfl
    · rw [show all.verdict = _ from k1] at hv0; cases hv0
    · rw [show all.verdict = _ from k1] at hv0; cases hv0
  have hend : (legsOf (sproutSetup o a.sub).nav disk₀ a.tree a.currentPath.reverse true).2 = (.done none, true) := by
    have e1 : (afterLegs (legsOf (sproutSetup o a.sub).nav disk₀ a.tree a.currentPath.reverse true).2 G0).1.verdict = .done none := by
      rw [← k1]; exact hv0
    have e2 : (afterLegs (legsOf (sproutSetup o a.sub).nav disk₀ a.tree a.currentPath.reverse true).2 G0).2.1 = true := by
      rw [← k4 (by rw [show (walkResume P (.relic r) settings files disk₀ x').verdict = _ from hv0]; simp)]; exact hc0
    rcases G0 with ⟨g, s⟩
    simp only at hd0
    subst hd0
    simp only [afterLegs] at e1 e2
    exact Prod.ext (final_verdict.1 e1) e2
  obtain ⟨v, v0, l1, l2, l3⟩ := legs_gone (c := (sproutSetup o a.sub).nav) (env := bareEnv (sproutSetup o a.sub) (o.client h) a.tree)
    (env0 := bareEnv (sproutSetup o a.sub) (o.client h) a.tree) (fault := o.fault) (fault0 := o.fault)
    (stat := statOf (sproutSetup o a.sub).nav o.afterwards disk) (stat0 := statOf (sproutSetup o a.sub).nav o.afterwards disk₀) hsort hread
    (fun p t hs => by
      obtain ⟨f, g1, rfl, g3⟩ := honest_found hin'.honest hs
      exact ⟨f, rfl, (hin.part _ _ g1).distinct hdistinct, g3⟩)
    (fun p => by
      rw [hstat, hstat]
      rcases hsame p with h | ⟨e, h⟩
      · exact .inl (by rw [h])
      · exact .inr ⟨e, by rw [h]⟩)
    (bare_nil _ _ hnil) (usual_skip hu _ _) (bare_nil _ _ hnil) (usual_skip hu _ _) answer (fun k p e => hfault k.client p e)
    (legsOf (sproutSetup o a.sub).nav disk₀ a.tree a.currentPath.reverse true).1 ⟨a.depth, w, []⟩ ⟨a.depth, w0, []⟩ rfl (by simp) (by simp)
    (by rw [hG0]; exact hd0)
  rw [hG0] at l2
  simp only [List.nil_append] at l1 l2
  rw [l1] at h3
  rw [l2] at k3
  have hk : kept = (invoked v0).filter (StillThere (statOf (sproutSetup o a.sub).nav o.afterwards disk)) := by
    show all.nodes.filter _ = _
    rw [show all.nodes = _ from k3]
    exact List.filter_congr fun n _ => (hkept n).symm
  rw [hk]
  generalize goLegs (sproutSetup o a.sub).nav (bareEnv (sproutSetup o a.sub) (o.client h) a.tree) o.fault
    (statOf (sproutSetup o a.sub).nav o.afterwards disk) (legsOf (sproutSetup o a.sub).nav disk₀ a.tree a.currentPath.reverse true).1
    ⟨a.depth, w, []⟩ = G at *
  rcases G with ⟨g, s⟩
  rcases l3 with ⟨p1, p2, -⟩ | ⟨l, -, e, e', q1, q2, q3, q4⟩
  · simp only at p2
    subst p2
    have hv : rep.verdict = .done none := by rw [show rep.verdict = _ from h1, hend]; rfl
    refine .inl ⟨by rw [show rep.nodes = _ from h3]; exact p1, hv, ?_⟩
    rw [show rep.complete = _ from h4 (by rw [show (walkResume P (.relic r) settings files disk x).verdict = _ from hv]; simp), hend]; rfl
  · simp only at q3
    subst q3
    have hv : rep.verdict = .done (some e') := by rw [show rep.verdict = _ from h1]; rfl
    refine .inr ⟨l.1 ++ [l.2], e, e', ?_, q2, hv, ?_, by rw [show rep.nodes = _ from h3]; exact q4⟩
    · rw [hstat] at q1
      cases hd : disk (l.1 ++ [l.2]) with
      | error e1 => rw [hd] at q1; cases q1; rfl
      | ok f => rw [hd] at q1; cases q1
    · rw [show rep.complete = _ from h4 (by rw [show (walkResume P (.relic r) settings files disk x).verdict = _ from hv]; simp)]; rfl

/-- Not vacuous: the demo session saved in /r/a/b, resumed when /r/c cannot be stat'ed any more, with a fault handler that answers nil and
with the default one, which answers with the error. -/
example :
    let P := sortPlatform
    let disk₀ := diskOf [] Demo.fs
    let disk : Disk := fun p => if p = ["r", "c"] then .error (.code 2) else disk₀ p
    let mild : List (Option (With Nat)) := [some (.faultHandler fun k _ _ => (k, none))]
    let r := Demo.relic .spawn Demo.quiet
    let files := Demo.saved ["r", "a", "b"] .universal
    let go (ws : List (Option (With Nat))) (d : Disk) := walkResume P (.relic r) (settingsOf P ws) files d 0
    (∀ p, disk p = disk₀ p ∨ ∃ e, disk p = .error e) ∧ (∀ p, Above p ["r", "a", "b"] → disk p = disk₀ p) ∧
    (∀ ws : List (Option (With Nat)), ws = [] ∨ ws = mild → (go ws disk₀).verdict = .done none ∧ (go ws disk₀).complete = true ∧
      ∃ (o : Options Nat) (a : Active) (answer : Path → Err → Option Err), resumePlatform P r (settingsOf P ws) (files r.from) = .ok (o, a) ∧ a.currentPath = ["r", "a", "b"] ∧ r.handler = some (Demo.byPath Demo.quiet) ∧
        o.Bare ∧ o.Usual ∧ (∀ k p e, (o.defects.fault k p e).2 = answer p e) ∧ Within disk₀ o [] Demo.fs ∧ a.sub ≠ .undefined) ∧
    (go mild disk₀).nodes.map (fun n => n.path) = [["r", "a", "b"], ["r", "a", "b", "y"], ["r", "a", "b", "z"], ["r", "a", "x"], ["r", "c"], ["r", "c", "w"], ["r", "f"], ["r", "g"]] ∧
    (go mild disk).nodes.map (fun n => n.path) = [["r", "a", "b"], ["r", "a", "b", "y"], ["r", "a", "b", "z"], ["r", "a", "x"], ["r", "f"], ["r", "g"]] ∧
    (go mild disk).verdict = .done none ∧ (go mild disk).complete = true ∧
    (go [] disk).nodes.map (fun n => n.path) = [["r", "a", "b"], ["r", "a", "b", "y"], ["r", "a", "b", "z"], ["r", "a", "x"]] ∧
    (go [] disk).verdict = .done (some (.code 2)) ∧ (go [] disk).complete = false := by
  intro P disk₀ disk mild r files go
  refine ⟨fun p => ?_, fun p hp => ?_, fun ws hws => ?_, ?_⟩
  · by_cases hp : p = ["r", "c"]
    · exact .inr ⟨_, if_pos hp⟩
    · exact .inl (if_neg hp)
  · refine if_neg fun he => ?_
    rw [he] at hp
    have : ¬ (["r", "c"] : Path) <+: ["r", "a", "b"] := by decide
    exact this hp.1
  · obtain ⟨doc, h1, h2⟩ := roundTrip P (defaultOptions P) (savedAt ["r"] ["r", "a", "b"] .universal)
    have hf : files r.from = .ok doc := by
      simp only [P] at h1
      simp only [files, Demo.saved, savedFile, h1]
    rcases hws with rfl | rfl
    · refine ⟨by decide +kernel, by decide +kernel, fromJSON P (toJSON (defaultOptions P)), (savedAt ["r"] ["r", "a", "b"] .universal).active, fun _ e => some e, ?_, rfl, rfl,
        ⟨rfl, rfl, rfl, rfl, rfl, rfl, rfl⟩, ⟨fun _ => rfl, fun l => (insertSort_sorts _ l).1, fun _ _ _ => rfl⟩, fun _ _ _ => rfl,
        ⟨fun p g => diskOf_at p g, fun _ => rfl⟩, by decide⟩
      rw [hf]
      simp only [resumePlatform, h2, bindOptions]
      rfl
    · refine ⟨by decide +kernel, by decide +kernel, { fromJSON P (toJSON (defaultOptions P)) with defects := { (fromJSON P (toJSON (defaultOptions P))).defects with
        fault := fun k _ _ => (k, none) } }, (savedAt ["r"] ["r", "a", "b"] .universal).active, fun _ _ => none, ?_, rfl, rfl,
        ⟨rfl, rfl, rfl, rfl, rfl, rfl, rfl⟩, ⟨fun _ => rfl, fun l => (insertSort_sorts _ l).1, fun _ _ _ => rfl⟩, fun _ _ _ => rfl,
        ⟨fun p g => diskOf_at p g, fun _ => rfl⟩, by decide⟩
      rw [hf]
      simp only [resumePlatform, h2, bindOptions]
      rfl
  · decide +kernel

end Traverse
