import Verif.Proofs.Again
/-
Navigate called again on a navigator that resumes by fastward: the guardian is decorated by each call, and the link taken out when the
saved path is met.
-/
namespace Traverse
variable {κ : Type}

/-- The order the guardian's positions were arranged in. -/
def Guard.order (g : Guard) : Option (List Role) := g.positions.map (·.order)

/-- As `GuardOK`, and arranged as at first. -/
structure GuardSet (S : Setup) (fw : Bool) (g : Guard) : Prop where
  ok : GuardOK S fw g
  order : g.order = S.guard.order

theorem PSet.list_order {T : Type} [DecidableEq T] (ps : PSet T) : ps.list.1.order = ps.order ∧ ps.list.1.items = ps.items ∧ ps.list.1.anchor = ps.anchor := by
  unfold PSet.list; split <;> exact ⟨rfl, rfl, rfl⟩

theorem GuardSet.touched {S : Setup} {fw} {w : World κ} (h : GuardSet S fw w.guard) : GuardSet S fw w.touched.guard := by
  refine ⟨h.ok.touched, ?_⟩
  rw [← h.order]
  cases hp : w.guard.positions with
  | none => simp [Guard.order, World.touched, hp]
  | some ps => simp [Guard.order, World.touched, hp, ps.list_order.1]

theorem GuardSet.unwind {S : Setup} {fw} {g : Guard} (h : GuardSet S fw g) : GuardSet S false (g.unwind .fastward) := by
  refine ⟨h.ok.unwind, ?_⟩
  rw [← h.order]
  have hd : ∀ ps : PSet Role, (ps.delete .fastward).order = ps.order := by
    intro ps; unfold PSet.delete; split <;> rfl
  cases hp : g.positions with
  | none => simp [Guard.order, Guard.unwind, hp]
  | some ps => simp [Guard.order, Guard.unwind, hp, hd]

theorem guard_set (S : Setup) : GuardSet S true S.guard := ⟨guard_ok S, rfl⟩

theorem mem_roles (S : Setup) (fw : Bool) (r : Role) : r ∈ S.roles fw ↔ r ∈ actualOrder ∧ S.wants r = true ∧ (fw = true ∨ r ≠ .fastward) := by
  simp [Setup.roles, List.mem_filter]

theorem mem_listing {T : Type} [DecidableEq T] {ps : PSet T} {x : T} (h : x ∈ ps.order) : x ∈ ps.listing ↔ x ∈ ps.items := by
  simp [PSet.listing, List.mem_filter, h]

/-- Decorated again. -/
theorem GuardSet.decorate {S : Setup} (hres : S.resume = some .fastward) {fw} {g : Guard} (h : GuardSet S fw g) :
    GuardSet S true (g.decorate .fastward) := by
  have hwant : S.wants .fastward = true := by rw [Setup.wants_eq]; simp [wantsOf, hres]
  have hact : S.activeRoles ≠ [] := by
    rw [Setup.activeRoles_eq, hres]; simp [activeOf]
  have hfr : Role.fastward ∈ S.roles true := (mem_roles S true .fastward).2 ⟨by decide, hwant, .inl rfl⟩
  obtain ⟨ps0, a1, a2, a3, a4⟩ := (guard_ok S).shows.resolve_left (fun h => hact h.1)
  obtain ⟨ps, b1, b2, b3, b4⟩ := h.ok.shows.resolve_left (fun h => hact h.1)
  have hord : ps.order = ps0.order := by
    have := h.order
    simpa [Guard.order, a1, b1] using this
  have hfo : Role.fastward ∈ ps.order := by
    rw [hord]
    rw [← a4] at hfr
    exact (List.mem_filter.1 hfr).1
  obtain ⟨c1, c2, c3⟩ := ps.list_order
  have hpos : (g.decorate .fastward).positions = some (ps.list.1.insert .fastward).1 := by simp [Guard.decorate, b1, PSet.top]
  have hio : (ps.list.1.insert .fastward).1.order = ps.order := by
    unfold PSet.insert
    repeat' split
    all_goals simp [c1]
  refine ⟨⟨.inr ⟨_, hpos, ?_, b3.list_fst.1.insert _, ?_⟩, ?_⟩, ?_⟩
  · unfold PSet.insert
    repeat' split
    all_goals simp [c3, b2]
  · have hitems : ∀ x ∈ ps.order, x ∈ (ps.list.1.insert .fastward).1.items ↔ x ∈ ps0.items := by
      intro x hx
      have e1 : x ∈ (ps.list.1.insert .fastward).1.items ↔ x = .fastward ∨ x ∈ ps.items := by
        unfold PSet.insert
        rw [c1, c2, c3, b2, if_neg (by decide), if_pos hfo]
        split
        · rename_i hm
          rw [c2]
          constructor
          · exact .inr
          · rintro (rfl | h)
            · exact hm
            · exact h
        · simp
      rw [e1, ← mem_listing (ps := ps) hx, ← mem_listing (ps := ps0) (hord ▸ hx), a4, b4, mem_roles, mem_roles]
      constructor
      · rintro (rfl | ⟨h1, h2, -⟩)
        · exact ⟨by decide, hwant, .inl rfl⟩
        · exact ⟨h1, h2, .inl rfl⟩
      · rintro ⟨h1, h2, -⟩
        by_cases hx : x = .fastward
        · exact .inl hx
        · exact .inr ⟨h1, h2, .inr hx⟩
    rw [← a4]
    unfold PSet.listing
    rw [hio, hord]
    refine List.filter_congr fun x hx => ?_
    rw [decide_eq_decide]
    exact hitems x (hord ▸ hx)
  · intro r hr
    rw [mem_roles] at hr
    by_cases hx : r = .fastward
    · subst hx; simp [Guard.decorate]
    · have := h.ok.inChain r ((mem_roles S fw r).2 ⟨hr.1, hr.2.1, .inr hx⟩)
      simp [Guard.decorate, this]
  · rw [Guard.order, hpos, Option.map_some, hio, hord, Guard.order, a1]; rfl

/-- `a` is `b` with its counters ahead by `m`, the fastward link being there in both or in neither. -/
def AheadF (S : Setup) (m : Metrics) (a b : World κ) : Prop :=
  ∃ fw g st, a = b.ahead m g st ∧ GuardSet S fw g ∧ GuardSet S fw b.guard

theorem big_aheadF {S : Setup} (C : Client κ) (target fw) (w : World κ) (m g st n) (hg : GuardSet S fw g) (hw : GuardSet S fw w.guard) :
    AheadF S m (S.big C target fw (w.ahead m g st) n).1 (S.big C target fw w n).1 ∧
      (S.big C target fw (w.ahead m g st) n).2 = (S.big C target fw w n).2 := by
  obtain ⟨hH, -⟩ := stageH_frame S C w ⟨n, []⟩
  unfold Setup.big
  rw [stageH_unc S C w m g st]
  rcases eH : S.stageH C w ⟨n, []⟩ with ⟨w1, p1, t1⟩
  rw [eH] at hH
  simp only at hH ⊢
  have hw1 : GuardSet S fw w1.guard := by rw [hH.guard]; exact hw
  cases t1.goesOn
  · exact ⟨⟨fw, g, _, rfl, hg, hw1⟩, rfl⟩
  · simp only [Bool.not_true, Bool.false_eq_true, if_false]
    obtain ⟨hF, -⟩ := stageF_counts S w1 p1
    rw [stageF_unc S w1 m g st]
    rcases eF : S.stageF w1 p1 with ⟨w2, p2, t2⟩
    rw [eF] at hF
    simp only at hF ⊢
    have hw2 : GuardSet S fw w2.guard := by rw [hF.guard]; exact hw1
    cases t2.goesOn
    · exact ⟨⟨fw, g, _, rfl, hg, hw2⟩, rfl⟩
    · simp only [Bool.not_true, Bool.false_eq_true, if_false]
      have pass : ∀ (w3 : World κ) (g3 : Guard) (fw3 : Bool), GuardSet S fw3 g3 → GuardSet S fw3 w3.guard → ∀ ran,
          AheadF S m ((anchorLink C (w3.ahead m g3 st) p2).1.noted n ran) ((anchorLink C w3 p2).1.noted n ran) ∧
          (anchorLink C (w3.ahead m g3 st) p2).2.2.reply = (anchorLink C w3 p2).2.2.reply := by
        intro w3 g3 fw3 hg3 hw3 ran
        rw [anchorLink_unc C w3 m g3 st]
        exact ⟨⟨fw3, g3, _, rfl, hg3, hw3⟩, rfl⟩
      unfold Setup.stageW
      split
      · unfold fastwardLink
        rcases fastwardMatch target p2.node with _ | _ | _
        · exact ⟨⟨fw, g, _, rfl, hg, hw2⟩, rfl⟩
        · exact ⟨⟨fw, g, _, rfl, hg, hw2⟩, rfl⟩
        · exact pass { w2 with guard := w2.guard.unwind .fastward, muted := unmuteAll w2.muted } (g.unwind .fastward) false hg.unwind hw2.unwind _
      · exact pass w2 g fw hg hw2 _

theorem invoke_aheadF {S : Setup} (C : Client κ) (target) {m} {a b : World κ} (h : AheadF S m a b) (n : Node) :
    (World.invoke S C target a n).2 = (World.invoke S C target b n).2 ∧
      AheadF S m (World.invoke S C target a n).1 (World.invoke S C target b n).1 := by
  obtain ⟨fw, g, st, rfl, h1, h2⟩ := h
  have h1' : GuardSet S fw (b.ahead m g st).guard := h1
  rw [invoke_big h1'.ok, invoke_big h2.ok]
  have e : (b.ahead m g st).touched = b.touched.ahead m (b.ahead m g st).touched.guard st := rfl
  rw [e]
  have := big_aheadF C target fw b.touched m (b.ahead m g st).touched.guard st n h1'.touched h2.touched
  exact ⟨this.2, this.1⟩

theorem AheadF.publish {S : Setup} {m} {a b : World κ} (h : AheadF S m a b) (C : Client κ) (n) : AheadF S m (a.publish C n) (b.publish C n) := by
  obtain ⟨fw, g, st, rfl, h1, h2⟩ := h
  exact ⟨fw, g, st, publish_ahead C b m g st n, h1, by rw [publish_guard]; exact h2⟩

theorem env_aheadF {S : Setup} (C : Client κ) (hC : C.Indifferent) (tree target m) :
    Sim (fun _ => True) (S.env C tree target) (S.env C tree target) (AheadF S m) := by
  refine ⟨fun a b p d h => h.publish C _, fun a b p d h => h.publish C _, fun a b n _ h => invoke_aheadF C target h n, ?_, ?_⟩
  · rintro a b n re - ⟨fw, g, st, rfl, h1, h2⟩
    exact ⟨rfl, fw, g, st, rfl, h1, h2⟩
  · rintro a b n d ⟨fw, g, st, rfl, h1, h2⟩
    simp only [Setup.env]
    have e := hC b.client ⟨tree, S.nav.sub, .retired, n.path, n.isDir, d, b.metrics.persisted⟩ (b.metrics.persisted.merge m)
    simp only at e
    have e' : (b.ahead m g st).metrics.persisted = b.metrics.persisted.merge m := merge_persisted _ _
    rw [e']
    show (C.panics b.client _).2 = _ ∧ _
    rw [e]
    refine ⟨rfl, fw, g, st, ?_, h1, h2⟩
    simp [World.ahead, Active.ahead]
    exact congrArg Prod.fst e

theorem runTop_aheadF {S : Setup} (o : Options κ) (C : Client κ) (hC : C.Indifferent) (disk : Disk) (tree target m)
    {d} {a b : World κ} (h : AheadF S m a b) :
    (runTop S o C disk tree target ⟨d, a, []⟩).1 = (runTop S o C disk tree target ⟨d, b, []⟩).1 ∧
    StSim (AheadF S m) (runTop S o C disk tree target ⟨d, a, []⟩).2 (runTop S o C disk tree target ⟨d, b, []⟩).2 := by
  refine top_sim (env_aheadF C hC tree target m) S.nav o.fault o.fault tree.dropLast tree (statOf S.nav o disk tree) ⟨d, a, []⟩ ⟨d, b, []⟩
    ⟨rfl, rfl, h⟩ ?_
  intro e
  obtain ⟨fw, g, st, rfl, h1, h2⟩ := h
  exact ⟨rfl, fw, g, st, rfl, h1, h2⟩

/-- Hibernation and the set of registered metrics are as they were. -/
structure Stead (w v : World κ) : Prop where
  hib : v.hib = w.hib
  known : ∀ j, (v.metrics j).isSome = (w.metrics j).isSome

theorem Stead.refl (w : World κ) : Stead w w := ⟨rfl, fun _ => rfl⟩
theorem Stead.trans {u v w : World κ} (h : Stead u v) (k : Stead v w) : Stead u w :=
  ⟨k.hib.trans h.hib, fun j => (k.known j).trans (h.known j)⟩
theorem Steady.stead {w v : World κ} (h : Steady w v) : Stead w v := ⟨h.hib, h.known⟩

theorem big_stead {S : Setup} (hh : S.hiber.active = false) (C : Client κ) (target fw) (w : World κ) (n) :
    Stead w (S.big C target fw w n).1 := by
  have hH : S.stageH C = passOn := by simp [Setup.stageH, hh]
  have h0 : Stead w (S.stageH C w ⟨n, []⟩).1 := by rw [hH]; exact .refl w
  unfold Setup.big
  rcases eH : S.stageH C w ⟨n, []⟩ with ⟨w1, p1, t1⟩
  rw [eH] at h0
  simp only at h0 ⊢
  cases t1.goesOn
  · exact ⟨h0.hib, h0.known⟩
  simp only [Bool.not_true, Bool.false_eq_true, if_false]
  have hF := h0.trans (stageF_steady S w1 p1).stead
  rcases eF : S.stageF w1 p1 with ⟨w2, p2, t2⟩
  rw [eF] at hF
  simp only at hF ⊢
  cases t2.goesOn
  · exact ⟨hF.hib, hF.known⟩
  · simp only [Bool.not_true, Bool.false_eq_true, if_false]
    have hW : Stead w2 (S.stageW fw target w2 p2).1 := by
      unfold Setup.stageW
      split
      · unfold fastwardLink
        rcases fastwardMatch target p2.node with _ | _ | _ <;> exact ⟨rfl, fun _ => rfl⟩
      · exact .refl _
    rcases eW : S.stageW fw target w2 p2 with ⟨w3, p3, t3⟩
    rw [eW] at hW
    simp only at hW ⊢
    have h3 := hF.trans hW
    cases t3.goesOn
    · exact ⟨h3.hib, h3.known⟩
    · simp only [Bool.not_true, Bool.false_eq_true, if_false]
      have hA := h3.trans (anchor_steady C w3 p3).stead
      exact ⟨hA.hib, hA.known⟩

/-- The world a session without hibernation has come to from `w`. -/
structure CameF (S : Setup) (w : World κ) (s : St (World κ)) : Prop where
  stead : Stead w s.ext
  guard : ∃ fw, GuardOK S fw s.ext.guard

theorem cameF_preserved {S : Setup} (hh : S.hiber.active = false) (C : Client κ) (tree target) (w : World κ) :
    Preserved (S.env C tree target) (CameF S w) := by
  have hpub : ∀ (s : St (World κ)) n d, CameF S w s → CameF S w { s with ext := s.ext.publish C n, depth := d } := by
    intro s n d h
    refine ⟨⟨?_, ?_⟩, ?_⟩
    · simpa using h.stead.hib
    · intro j; simpa using h.stead.known j
    · simpa using h.guard
  constructor
  · intro s p d h
    have := hpub s (.descend p d) 0 h
    exact ⟨this.stead, this.guard⟩
  · intro s p d h
    have := hpub s (.ascend p d) 0 h
    exact ⟨this.stead, this.guard⟩
  · intro s n h
    obtain ⟨fw, hg⟩ := h.guard
    have hb := big_stead hh C target fw s.ext.touched n
    obtain ⟨-, -, -, -, -, -, f1, -, k1⟩ := big_facts S C target fw _ n hg.touched
    rw [← invoke_big (C := C) (target := target) hg n] at hb k1
    exact ⟨h.stead.trans ⟨hb.hib, hb.known⟩, ⟨f1, k1⟩⟩
  · intro s n re h
    exact ⟨⟨h.stead.hib, h.stead.known⟩, h.guard⟩
  · intro s n h
    exact ⟨⟨h.stead.hib, h.stead.known⟩, h.guard⟩

theorem runTop_cameF {S : Setup} (hh : S.hiber.active = false) (o : Options κ) (C : Client κ) (disk : Disk) (tree target d)
    (w : World κ) (hg : ∃ fw, GuardOK S fw w.guard) : CameF S w (runTop S o C disk tree target ⟨d, w, []⟩).2 :=
  top_inv (cameF_preserved hh C tree target w) _ _ _ _ _ _ ⟨.refl w, hg⟩ (fun _ _ => ⟨⟨rfl, fun _ => rfl⟩, hg⟩)

end Traverse
