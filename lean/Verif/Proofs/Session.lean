import Verif.Proofs.Window
namespace Traverse
variable {κ : Type}

theorem anchor_reply (C : Client κ) (w : World κ) (p) :
    (anchorLink C w p).2.2.reply = (C.handler w.client p).2 := by
  unfold anchorLink
  simp only
  cases (C.handler w.client p).2 <;> rfl

/-- The files read for a node. -/
def Node.filesRead (n : Node) : List Entry := match n.cargo with | none => [] | some (fs, _) => fs

/-- What the filter stage does to the metrics. -/
def Setup.countP (S : Setup) (m : Metrics) (n : Node) : Metrics :=
  match S.filter.primary with
  | none => m
  | some (.node f) => if f n then m else m.tick (filteredMetric n.isDir)
  | some (.sample _) =>
    if n.scope &&& Scope.tree = 0#32 then m
    else m.times (if S.accepts n then .childFound else .childFilteredOut) n.filesRead.length

def Setup.countF (S : Setup) (m : Metrics) (n : Node) : Metrics :=
  if S.filter.active then
    match S.filter.child with
    | none => S.countP m n
    | some f =>
      if S.accepts n then
        let files := S.nav.sortEntries n.filesRead
        ((S.countP m n).times .childFound (files.filter f).length).times .childFilteredOut
          (files.length - (files.filter f).length)
      else S.countP m n
  else if S.nannyOn then m.times .childFound (S.nav.sortEntries n.filesRead).length
  else m

/-- The children assigned to an accepted node. -/
def Setup.childrenOf (S : Setup) (n : Node) : List Entry :=
  if S.filter.active then
    match S.filter.child with
    | none => []
    | some f => (S.nav.sortEntries n.filesRead).filter f
  else if S.nannyOn then S.nav.sortEntries n.filesRead
  else []

theorem primary_metrics (S : Setup) (P) (hP : S.filter.primary = some P) (w : World κ) (p) (hn : GoodNode S.nav p.node) :
    (primaryScheme P w p).1.metrics = S.countP w.metrics p.node := by
  unfold primaryScheme Setup.countP
  rw [hP]
  cases P with
  | node f =>
    simp only
    cases f p.node <;> rfl
  | sample m =>
    simp only
    by_cases h0 : p.node.scope &&& Scope.tree = 0#32
    · simp [h0]
    · rw [if_neg h0, if_neg h0]
      rcases hc : p.node.cargo with _ | ⟨fs, ds⟩
      · exfalso
        have := hn.cargo hc
        rw [hn.tree h0] at this
        unfold hasCargo at this
        split at this <;> cases this
      · have hacc : S.accepts p.node = !(m [⟨p.node.name, p.node.isDir, none⟩]).isEmpty := by
          simp [Setup.accepts, hP, h0]
        simp only [Node.filesRead, hc, hacc]

theorem child_effect (S : Setup) (f) (hc : S.filter.child = some f) (w : World κ) (p) (hn : GoodNode S.nav p.node)
    (hs : S.Sane) : (childScheme S f w p).1.metrics =
      (w.metrics.times .childFound ((S.nav.sortEntries p.node.filesRead).filter f).length).times .childFilteredOut
        ((S.nav.sortEntries p.node.filesRead).length - ((S.nav.sortEntries p.node.filesRead).filter f).length) ∧
      (childScheme S f w p).2.1.children = (S.nav.sortEntries p.node.filesRead).filter f := by
  unfold childScheme
  rcases hcc : p.node.cargo with _ | ⟨fs, ds⟩
  · exfalso
    have := hn.cargo hcc
    rcases hs.child (by simp [hc]) with h | h <;> rw [h] at this <;> cases this
  · simp [Node.filesRead, hcc]

theorem stageF_effect (S : Setup) (w : World κ) (n : Node) (hn : GoodNode S.nav n) (hs : S.Sane) :
    (S.stageF w ⟨n, []⟩).1.metrics = S.countF w.metrics n ∧
    (S.accepts n = true → (S.stageF w ⟨n, []⟩).2.1.children = S.childrenOf n) := by
  unfold Setup.stageF Setup.countF Setup.childrenOf
  cases ha : S.filter.active
  · simp only [Bool.false_eq_true, if_false]
    split
    · rename_i hnn
      unfold nannyLink
      rcases hcc : n.cargo with _ | ⟨fs, ds⟩
      · exfalso
        have := hn.cargo hcc
        have h2 : S.nav.sub = .directoriesWithFiles := by
          unfold Setup.nannyOn at hnn; simp at hnn; exact hnn.1
        rw [h2] at this; cases this
      · simp [Node.filesRead, hcc]
    · simp
  · simp only [if_true]
    unfold filterLink
    rw [hs.filter]
    simp only [Bool.false_eq_true, if_false]
    unfold schemeLink
    rcases hP : S.filter.primary with _ | P <;> rcases hC : S.filter.child with _ | f <;> simp only
    · simp [FilterOpts.active, hP, hC] at ha
    · have hacc : S.accepts n = true := by simp [Setup.accepts, hP]
      have := child_effect S f hC w ⟨n, []⟩ hn hs
      have hcp : S.countP w.metrics n = w.metrics := by simp [Setup.countP, hP]
      simp only [hacc, if_true, hcp]
      exact ⟨this.1, fun _ => this.2⟩
    · refine ⟨primary_metrics S P hP w ⟨n, []⟩ hn, fun _ => ?_⟩
      rw [(primaryScheme_counts P w ⟨n, []⟩).2]
    · have h1 := primary_verdict S P hP w ⟨n, []⟩ hn
      have h1p := (primaryScheme_counts P w ⟨n, []⟩).2
      have h1m := primary_metrics S P hP w ⟨n, []⟩ hn
      rcases e1 : primaryScheme P w ⟨n, []⟩ with ⟨w1, p1, t⟩
      rw [e1] at h1 h1p h1m
      simp only at h1 h1p h1m
      subst h1 h1p
      have h2 := child_effect S f hC w1 ⟨n, []⟩ hn hs
      have h2v := child_verdict S f hC w1 ⟨n, []⟩ hn hs
      rcases e2 : childScheme S f w1 ⟨n, []⟩ with ⟨w2, p2, t2⟩
      rw [e2] at h2 h2v
      simp only at h2 h2v
      subst h2v
      cases hacc : S.accepts n
      · simp [h1m]
      · simp only [e2, if_true]
        rw [h2.1, h1m]
        exact ⟨rfl, fun _ => h2.2⟩

/-- Whether the node passes hibernation. -/
def Setup.awake (S : Setup) (w : World κ) (n : Node) : Bool := (hibStep S.hiber (S.hibOf w) n).2

/-- One pass through the chain of a session that is not a fastward resume. -/
structure PlainStep (S : Setup) (C : Client κ) (w : World κ) (n : Node) (w' : World κ) (rep : Reply) : Prop where
  hib : S.hibOf w' = (hibStep S.hiber (S.hibOf w) n).1
  muted : w'.muted = w.muted
  saves : w'.saves = w.saves
  tape : w'.tape = w.tape ++ hibNote S.hiber (S.hibOf w) n ++
    (if S.awake w n && S.accepts n then [.call n] else [])
  metrics : w'.metrics = if S.awake w n then
      (if S.accepts n then (S.countF w.metrics n).tick (invokedMetric n.isDir) else S.countF w.metrics n)
    else w.metrics
  hits : w'.hits = w.hits ++ (if S.awake w n && S.accepts n then [⟨⟨n, S.childrenOf n⟩, w'.metrics, rep⟩] else [])
  slept : S.awake w n = false → rep = .ok (if S.hibOf w = .retired then some .skipAll else none)
  rejected : S.awake w n = true → S.accepts n = false → rep = .ok none
  client : S.hiber.active = false → (S.accepts n = true →
      w'.client = (C.handler w.client ⟨n, S.childrenOf n⟩).1 ∧ rep = (C.handler w.client ⟨n, S.childrenOf n⟩).2) ∧
    (S.accepts n = false → w'.client = w.client)
  reached : (w'.steps.filter (fun s => s.1 == .clientFilter)) = (w.steps.filter (fun s => s.1 == .clientFilter)) ++
    (if S.awake w n && S.filter.active then [(.clientFilter, n)] else [])
  handled : S.awake w n = true → S.accepts n = true → ∃ k, rep = (C.handler k ⟨n, S.childrenOf n⟩).2

theorem big_plain (S : Setup) (C : Client κ) (target fw) (w : World κ) (n : Node) (hr : S.resume ≠ some .fastward)
    (hn : GoodNode S.nav n) (hs : S.Sane) (hu : S.hibOf w ≠ .undefined)
    (hm : w.muted .wake = false ∧ w.muted .sleep = false) :
    PlainStep S C w n (S.big C target fw w n).1 (S.big C target fw w n).2 := by
  have hW : (S.stageW fw target : Link (World κ)) = passOn := by simp [Setup.stageW, hr]
  have hrW : S.rolesW fw = [] := by simp [Setup.rolesW, hr]
  have fH : S.rolesH.filter (fun r => r == .clientFilter) = [] := by unfold Setup.rolesH; split <;> rfl
  have fS : S.rolesS.filter (fun r => r == .clientFilter) = [] := by unfold Setup.rolesS; split <;> rfl
  have fF : S.rolesF.filter (fun r => r == .clientFilter) = if S.filter.active then [.clientFilter] else [] := by
    unfold Setup.rolesF; repeat' split
    all_goals rfl
  have fmap : ∀ L : List Role, (L.map (fun r => (r, n))).filter (fun s => s.1 == .clientFilter) =
      (L.filter (fun r => r == .clientFilter)).map (fun r => (r, n)) := by
    intro L; rw [List.filter_map]; rfl
  obtain ⟨hHf, hHp⟩ := stageH_frame S C w ⟨n, []⟩
  obtain ⟨v1, v2, v3, v4⟩ := stageH_verdict S hs C w ⟨n, []⟩ hu hm
  have hcl : S.hiber.active = false → (S.stageH C w ⟨n, []⟩).1 = w := by
    intro h; simp [Setup.stageH, h]
  unfold Setup.big
  rw [hW, hrW]
  rcases eH : S.stageH C w ⟨n, []⟩ with ⟨w1, p1, t1⟩
  rw [eH] at hHf hHp v1 v2 v3 v4 hcl
  simp only at hHf hHp v1 v2 v3 v4 hcl ⊢
  subst hHp
  have v2 : t1.goesOn = S.awake w n := v2
  have hhs : ∀ w' : World κ, w'.hib = w1.hib → S.hibOf w' = S.hibOf w1 := by
    intro w' h; simp [Setup.hibOf, h]
  cases g1 : t1.goesOn
  · have ga : S.awake w n = false := by rw [← v2, g1]
    simp only [Bool.not_false, if_true]
    refine ⟨(hhs _ rfl).trans v1, hHf.muted, hHf.saves, ?_, ?_, ?_, ?_, ?_, ?_, ?_, ?_⟩
    · simpa [ga, World.noted] using v4
    · simpa [ga, World.noted] using hHf.metrics
    · simpa [ga, World.noted] using hHf.hits
    · intro _; exact v3 ga
    · intro h; rw [ga] at h; cases h
    · intro h
      have : S.awake w n = true := by
        unfold Setup.awake
        rw [show S.hibOf w = .active by simp [Setup.hibOf, h], (hibStep_inactive h n).1]
      rw [ga] at this; cases this
    · simp [World.noted, ga, fmap, fH, hHf.steps]
    · intro h; rw [ga] at h; cases h
  · have ga : S.awake w n = true := by rw [← v2, g1]
    simp only [Bool.not_true, Bool.false_eq_true, if_false]
    obtain ⟨hF, hFp⟩ := stageF_counts S w1 ⟨n, []⟩
    obtain ⟨hFm, hFc⟩ := stageF_effect S w1 n hn hs
    have hFv := stageF_verdict S w1 ⟨n, []⟩ hn hs
    rcases eF : S.stageF w1 ⟨n, []⟩ with ⟨w2, p2, t2⟩
    rw [eF] at hF hFp hFm hFc hFv
    simp only at hF hFp hFm hFc hFv ⊢
    subst hFv
    rw [hHf.metrics] at hFm
    cases hacc : S.accepts n
    · simp only [Turn.goesOn, Bool.not_false, if_true]
      refine ⟨(hhs _ hF.hib).trans v1, hF.muted.trans hHf.muted, hF.saves.trans hHf.saves, ?_, ?_, ?_, ?_, ?_, ?_, ?_, ?_⟩
      · simpa [ga, hacc, World.noted, hF.tape] using v4
      · simpa [ga, hacc, World.noted] using hFm
      · simpa [ga, hacc, World.noted, hF.hits] using hHf.hits
      · intro h; rw [ga] at h; cases h
      · intro _ _; rfl
      · intro h
        refine ⟨fun h2 => by rw [hacc] at h2; (try cases h2), fun _ => ?_⟩
        show w2.client = w.client
        rw [hF.client, hcl h]
      · simp only [World.noted, List.filter_append, ga, fmap, fH, fF, hF.steps, hHf.steps, List.map_append]
        cases S.filter.active <;> simp
      · intro _ h; rw [hacc] at h; cases h
    · simp only [goesOn_true, Bool.not_true, Bool.false_eq_true, if_false, passOn_apply, List.append_nil]
      have hp2 : p2 = ⟨n, S.childrenOf n⟩ := by
        obtain ⟨a, b⟩ := p2
        simp only at hFp hFc
        rw [hFp, hFc hacc]
      subst hp2
      have hin : (if n.isDir then Metric.dirsInvoked else .filesInvoked) = invokedMetric n.isDir := rfl
      refine ⟨(hhs _ hF.hib).trans v1, hF.muted.trans hHf.muted, hF.saves.trans hHf.saves, ?_, ?_, ?_, ?_, ?_, ?_, ?_, ?_⟩
      · simp [ga, hacc, World.noted, anchorLink, hF.tape, v4]
      · simp [ga, hacc, World.noted, anchorLink, hFm, hin]
      · rw [anchor_reply]
        simp [ga, hacc, World.noted, anchorLink, hF.hits, hHf.hits]
      · intro h; rw [ga] at h; cases h
      · intro _ h; rw [hacc] at h; cases h
      · intro h
        refine ⟨fun _ => ?_, fun h2 => by rw [hacc] at h2; (try cases h2)⟩
        rw [anchor_reply, ← hcl h, ← hF.client]
        exact ⟨rfl, rfl⟩
      · simp only [World.noted, List.filter_append, ga, fmap, fH, fF, fS, anchorLink, hF.steps, hHf.steps, List.map_append]
        cases S.filter.active <;> simp
      · intro _ _; exact ⟨w2.client, anchor_reply ..⟩

end Traverse
