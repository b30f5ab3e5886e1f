import Verif.Model.Again
import Verif.Proofs.Sampled
import Verif.Proofs.Legs
/-
A world that has seen more: its counters are ahead. Nothing in a navigation depends on them.
-/
namespace Traverse
variable {κ : Type}

/-- Ahead by the counts of `m`. -/
def Hit.ahead (m : Metrics) (h : Hit) : Hit := { h with seen := h.seen.merge m }
def Active.ahead (m : Metrics) (a : Active) : Active := { a with metrics := a.metrics.merge m }

/-- The world with its counters ahead by `m`, and another guardian and record of links. -/
def World.ahead (w : World κ) (m : Metrics) (g : Guard) (st : List (Role × Node)) : World κ :=
  { w with metrics := w.metrics.merge m, hits := w.hits.map (Hit.ahead m), saves := w.saves.map (Active.ahead m), guard := g, steps := st }

theorem merge_times (a m : Metrics) (k : Metric) (n : Nat) : (a.merge m).times k n = (a.times k n).merge m := by
  funext j
  simp only [Metrics.times, Metrics.merge]
  by_cases h : j = k
  · subst h; simp only [if_true]
    cases a j <;> cases m j <;> simp [Nat.add_right_comm]
  · simp only [if_neg h]

theorem merge_persisted (a m : Metrics) : (a.merge m).persisted = a.persisted.merge m := by
  funext j
  cases j <;> simp only [Metrics.persisted, Metrics.merge]

theorem publish_ahead (C : Client κ) (w : World κ) (m g st n) : (w.ahead m g st).publish C n = (w.publish C n).ahead m g st := by
  unfold World.publish
  by_cases h : w.muted n.ev = true
  · rw [if_pos h, if_pos (show (w.ahead m g st).muted n.ev = true from h)]
  · rw [if_neg h, if_neg (show ¬ (w.ahead m g st).muted n.ev = true from h)]; rfl

/-- A link that does not look at the counters. -/
def Uncounted (l : Link (World κ)) : Prop := ∀ w m g st p, l (w.ahead m g st) p = ((l w p).1.ahead m g st, (l w p).2)

theorem passOn_unc : Uncounted (passOn : Link (World κ)) := fun _ _ _ _ _ => rfl
theorem anchorLink_unc (C : Client κ) : Uncounted (anchorLink C) := by
  intro w m g st p
  simp only [anchorLink, World.ahead, Metrics.tick, merge_times, List.map_append, List.map_cons, List.map_nil, Hit.ahead]
theorem nannyLink_unc (S : Setup) : Uncounted (nannyLink S : Link (World κ)) := by
  intro w m g st p
  unfold nannyLink
  cases p.node.cargo <;> simp [World.ahead, merge_times]
theorem childScheme_unc (S : Setup) (f) : Uncounted (childScheme S f : Link (World κ)) := by
  intro w m g st p
  unfold childScheme
  cases p.node.cargo <;> simp [World.ahead, merge_times]
theorem primaryScheme_unc (P) : Uncounted (primaryScheme P : Link (World κ)) := by
  intro w m g st p
  unfold primaryScheme
  cases P with
  | node f => simp only; cases f p.node <;> simp [World.ahead, merge_times, Metrics.tick]
  | sample mm =>
    simp only
    by_cases h : p.node.scope &&& Scope.tree = 0#32
    · simp only [if_pos h]
    · simp only [if_neg h]
      cases p.node.cargo <;> simp [World.ahead, merge_times]
theorem hiberLink_unc (C : Client κ) (h) : Uncounted (hiberLink C h) := by
  intro w m g st p
  unfold hiberLink
  rw [show (w.ahead m g st).hib = w.hib from rfl]
  by_cases hd : h.dies w.hib p.node = true
  · simp only [if_pos hd]
  simp only [if_neg hd]
  unfold hiberNext
  rw [show (w.ahead m g st).hib = w.hib from rfl]
  cases w.hib
  · rfl
  · simp only; cases h.wake p.node <;> simp only [publish_ahead] <;> rfl
  · simp only; cases h.sleep p.node <;> simp only [publish_ahead] <;> rfl
  · rfl
theorem filterLink_unc (S : Setup) : Uncounted (filterLink S : Link (World κ)) := by
  intro w m g st p
  unfold filterLink
  by_cases hd : S.filter.dies p.node = true
  · simp only [if_pos hd]
  simp only [if_neg hd]
  unfold schemeLink
  cases S.filter.primary with
  | none =>
    cases S.filter.child with
    | none => rfl
    | some f => exact childScheme_unc S f w m g st p
  | some P =>
    cases S.filter.child with
    | none => exact primaryScheme_unc P w m g st p
    | some f =>
      simp only
      rw [primaryScheme_unc P w m g st p]
      rcases primaryScheme P w p with ⟨w1, p1, t⟩
      simp only
      rcases t with ⟨_ | _, e⟩ | _
      · rfl
      · simp only
        rw [childScheme_unc S f w1 m g st p1]
        rcases childScheme S f w1 p1 with ⟨w2, p2, t2⟩
        rcases t2 with ⟨_, _⟩ | _ <;> rfl
      · rfl

theorem stageH_unc (S : Setup) (C : Client κ) : Uncounted (S.stageH C) := by
  unfold Setup.stageH; split
  · exact hiberLink_unc C _
  · exact passOn_unc
theorem stageF_unc (S : Setup) : Uncounted (S.stageF : Link (World κ)) := by
  unfold Setup.stageF; split
  · exact filterLink_unc S
  · split
    · exact nannyLink_unc S
    · exact passOn_unc

theorem big_ahead {S : Setup} (ho : S.Ordinary) (C : Client κ) (target fw fw') (w : World κ) (m g st n) :
    ∃ g₁ st₁, (S.big C target fw (w.ahead m g st) n).1 = ((S.big C target fw' w n).1).ahead m g₁ st₁ ∧
      (S.big C target fw (w.ahead m g st) n).2 = (S.big C target fw' w n).2 := by
  have hW : ∀ fw, (S.stageW fw target : Link (World κ)) = passOn := by
    intro fw; unfold Setup.stageW; rcases ho with h | h <;> simp [h]
  unfold Setup.big
  rw [hW, hW, stageH_unc S C w m g st]
  rcases S.stageH C w ⟨n, []⟩ with ⟨w1, p1, t1⟩
  simp only
  cases t1.goesOn
  · exact ⟨_, _, rfl, rfl⟩
  · simp only [Bool.not_true, Bool.false_eq_true, if_false]
    rw [stageF_unc S w1 m g st]
    rcases S.stageF w1 p1 with ⟨w2, p2, t2⟩
    simp only
    cases t2.goesOn
    · exact ⟨_, _, rfl, rfl⟩
    · simp only [Bool.not_true, Bool.false_eq_true, if_false, passOn, Turn.goesOn]
      rw [anchorLink_unc C w2 m g st]
      exact ⟨_, _, rfl, rfl⟩

/-- `a` is `b` with its counters ahead by `m`, as far as the client side can tell. -/
def Ahead (S : Setup) (m : Metrics) (a b : World κ) : Prop :=
  (∃ g st, a = b.ahead m g st) ∧ (∃ fw, GuardOK S fw a.guard) ∧ (∃ fw, GuardOK S fw b.guard)

theorem invoke_ahead {S : Setup} (ho : S.Ordinary) (C : Client κ) (target) {m} {a b : World κ} (h : Ahead S m a b) (n : Node) :
    (World.invoke S C target a n).2 = (World.invoke S C target b n).2 ∧
      Ahead S m (World.invoke S C target a n).1 (World.invoke S C target b n).1 := by
  obtain ⟨⟨g, st, rfl⟩, ⟨fw, h1⟩, ⟨fw', h2⟩⟩ := h
  rw [invoke_big h1, invoke_big h2]
  have e : (b.ahead m g st).touched = b.touched.ahead m (b.ahead m g st).touched.guard st := rfl
  obtain ⟨-, -, -, -, -, -, f1, -, k1⟩ := big_facts S C target fw _ n h1.touched
  obtain ⟨-, -, -, -, -, -, f2, -, k2⟩ := big_facts S C target fw' _ n h2.touched
  obtain ⟨g₁, st₁, e1, e2⟩ := big_ahead ho C target fw fw' b.touched m (b.ahead m g st).touched.guard st n
  rw [← e] at e1 e2
  exact ⟨e2, ⟨g₁, st₁, e1⟩, ⟨f1, k1⟩, ⟨f2, k2⟩⟩

/-- The panic handler's answer does not depend on the counters it is shown. -/
def Client.Indifferent (C : Client κ) : Prop := ∀ k a m, C.panics k { a with metrics := m } = C.panics k a

theorem Ahead.publish {S : Setup} {m} {a b : World κ} (h : Ahead S m a b) (C : Client κ) (n) : Ahead S m (a.publish C n) (b.publish C n) := by
  obtain ⟨⟨g, st, rfl⟩, ⟨fw, h1⟩, ⟨fw', h2⟩⟩ := h
  refine ⟨⟨g, st, publish_ahead C b m g st n⟩, ⟨fw, ?_⟩, ⟨fw', ?_⟩⟩
  · rw [publish_ahead]; exact h1
  · simpa using h2

theorem env_ahead {S : Setup} (ho : S.Ordinary) (C : Client κ) (hC : C.Indifferent) (tree target m) :
    Sim (fun _ => True) (S.env C tree target) (S.env C tree target) (Ahead S m) := by
  refine ⟨fun a b p d h => h.publish C _, fun a b p d h => h.publish C _, fun a b n _ h => invoke_ahead ho C target h n, ?_, ?_⟩
  · rintro a b n re - ⟨⟨g, st, rfl⟩, h1, h2⟩
    exact ⟨rfl, ⟨g, st, rfl⟩, h1, h2⟩
  · rintro a b n d ⟨⟨g, st, rfl⟩, h1, h2⟩
    simp only [Setup.env]
    have e := hC b.client ⟨tree, S.nav.sub, .retired, n.path, n.isDir, d, b.metrics.persisted⟩ (b.metrics.persisted.merge m)
    simp only at e
    have e' : (b.ahead m g st).metrics.persisted = b.metrics.persisted.merge m := merge_persisted _ _
    rw [e']
    show (C.panics b.client _).2 = _ ∧ _
    rw [e]
    refine ⟨rfl, ⟨g, st, ?_⟩, h1, h2⟩
    simp [World.ahead, Active.ahead, e']
    exact congrArg Prod.fst e

theorem top_sim {σ τ : Type} {e1 : Env σ} {e2 : Env τ} {R} (h : Sim (fun _ => True) e1 e2 R) (c : Nav) (f1 f2) (pre path : Path) (r : RootStat)
    (s u) (hs : StSim R s u) (hf : ∀ e, (f1 s.ext path e).2 = (f2 u.ext path e).2 ∧ R (f1 s.ext path e).1 (f2 u.ext path e).1) :
    (top c e1 f1 pre path r s).1 = (top c e2 f2 pre path r u).1 ∧ StSim R (top c e1 f1 pre path r s).2 (top c e2 f2 pre path r u).2 := by
  cases r with
  | error e => simp only [top]; exact ⟨by rw [(hf e).1], hs.depth, hs.log, (hf e).2⟩
  | found t =>
    simp only [top]
    have := h.traverse c (fun _ _ _ _ => trivial) t [] pre s u hs
    exact ⟨by rw [this.1], this.2⟩

theorem runTop_ahead {S : Setup} (ho : S.Ordinary) (o : Options κ) (C : Client κ) (hC : C.Indifferent) (disk : Disk) (tree target m)
    {d} {a b : World κ} (h : Ahead S m a b) :
    (runTop S o C disk tree target ⟨d, a, []⟩).1 = (runTop S o C disk tree target ⟨d, b, []⟩).1 ∧
    StSim (Ahead S m) (runTop S o C disk tree target ⟨d, a, []⟩).2 (runTop S o C disk tree target ⟨d, b, []⟩).2 := by
  refine top_sim (env_ahead ho C hC tree target m) S.nav o.fault o.fault tree.dropLast tree (statOf S.nav o disk tree) ⟨d, a, []⟩ ⟨d, b, []⟩
    ⟨rfl, rfl, h⟩ ?_
  intro e
  obtain ⟨⟨g, st, rfl⟩, h1, h2⟩ := h
  exact ⟨rfl, ⟨g, st, rfl⟩, h1, h2⟩

/-! ### What a navigation leaves alone -/

/-- Hibernation, muting and the set of registered metrics are as they were. -/
structure Steady (w v : World κ) : Prop where
  hib : v.hib = w.hib
  muted : v.muted = w.muted
  known : ∀ j, (v.metrics j).isSome = (w.metrics j).isSome

theorem Steady.refl (w : World κ) : Steady w w := ⟨rfl, rfl, fun _ => rfl⟩
theorem Steady.trans {u v w : World κ} (h : Steady u v) (k : Steady v w) : Steady u w :=
  ⟨k.hib.trans h.hib, k.muted.trans h.muted, fun j => (k.known j).trans (h.known j)⟩

theorem times_known (m : Metrics) (k n j) : ((m.times k n) j).isSome = (m j).isSome := by
  simp only [Metrics.times]
  by_cases h : j = k
  · subst h; simp
  · simp [h]

theorem anchor_steady (C : Client κ) (w : World κ) (p) : Steady w (anchorLink C w p).1 :=
  ⟨rfl, rfl, fun j => times_known _ _ _ _⟩
theorem nanny_steady (S : Setup) (w : World κ) (p) : Steady w (nannyLink S w p).1 := by
  unfold nannyLink; split
  · exact .refl w
  · exact ⟨rfl, rfl, fun j => times_known _ _ _ _⟩
theorem child_steady (S : Setup) (f) (w : World κ) (p) : Steady w (childScheme S f w p).1 := by
  unfold childScheme; split
  · exact .refl w
  · exact ⟨rfl, rfl, fun j => (times_known _ _ _ _).trans (times_known _ _ _ _)⟩
theorem primary_steady (P) (w : World κ) (p) : Steady w (primaryScheme P w p).1 := by
  unfold primaryScheme
  cases P with
  | node f =>
    simp only
    cases f p.node
    · exact ⟨rfl, rfl, fun j => times_known _ _ _ _⟩
    · exact .refl w
  | sample mm =>
    simp only
    by_cases h : p.node.scope &&& Scope.tree = 0#32
    · simp only [if_pos h]; exact .refl w
    · simp only [if_neg h]
      cases p.node.cargo
      · exact .refl w
      · exact ⟨rfl, rfl, fun j => times_known _ _ _ _⟩
theorem filter_steady (S : Setup) (w : World κ) (p) : Steady w (filterLink S w p).1 := by
  unfold filterLink
  by_cases hd : S.filter.dies p.node = true
  · rw [if_pos hd]; exact .refl w
  rw [if_neg hd]
  unfold schemeLink
  cases S.filter.primary with
  | none =>
    cases S.filter.child with
    | none => exact .refl w
    | some f => exact child_steady S f w p
  | some P =>
    have hp := primary_steady P w p
    cases S.filter.child with
    | none => exact hp
    | some f =>
      simp only
      revert hp
      rcases primaryScheme P w p with ⟨w1, p1, t⟩
      intro hp
      rcases t with ⟨_ | _, e⟩ | _
      · exact hp
      · have hc := child_steady S f w1 p1
        simp only
        revert hc
        rcases childScheme S f w1 p1 with ⟨w2, p2, t2⟩
        intro hc
        rcases t2 with ⟨_, _⟩ | _ <;> exact Steady.trans (v := w1) hp hc
      · exact hp

theorem stageF_steady (S : Setup) (w : World κ) (p) : Steady w (S.stageF w p).1 := by
  unfold Setup.stageF; split
  · exact filter_steady S w p
  · split
    · exact nanny_steady S w p
    · exact .refl w

theorem big_steady {S : Setup} (ho : S.Ordinary) (hh : S.hiber.active = false) (C : Client κ) (target fw) (w : World κ) (n) :
    Steady w (S.big C target fw w n).1 := by
  have hW : (S.stageW fw target : Link (World κ)) = passOn := by
    unfold Setup.stageW; rcases ho with h | h <;> simp [h]
  have hH : S.stageH C = passOn := by simp [Setup.stageH, hh]
  unfold Setup.big
  rw [hW, hH]
  simp only [passOn_apply, goesOn_true, Bool.not_true, Bool.false_eq_true, if_false]
  have hF := stageF_steady S w ⟨n, []⟩
  revert hF
  rcases S.stageF w ⟨n, []⟩ with ⟨w2, p2, t2⟩
  intro hF
  simp only at hF ⊢
  cases t2.goesOn
  · exact ⟨hF.hib, hF.muted, hF.known⟩
  · simp only [Bool.not_true, Bool.false_eq_true, if_false]
    have hA := hF.trans (anchor_steady C w2 p2)
    exact ⟨hA.hib, hA.muted, hA.known⟩

/-- The world a session without hibernation has come to from `w`. -/
structure Came (S : Setup) (w : World κ) (s : St (World κ)) : Prop where
  steady : Steady w s.ext
  guard : ∃ fw, GuardOK S fw s.ext.guard

theorem came_preserved {S : Setup} (ho : S.Ordinary) (hh : S.hiber.active = false) (C : Client κ) (tree target) (w : World κ) :
    Preserved (S.env C tree target) (Came S w) := by
  have hpub : ∀ (s : St (World κ)) n d, Came S w s → Came S w { s with ext := s.ext.publish C n, depth := d } := by
    intro s n d h
    refine ⟨⟨?_, ?_, ?_⟩, ?_⟩
    · simpa using h.steady.hib
    · simpa using h.steady.muted
    · intro j; simpa using h.steady.known j
    · simpa using h.guard
  constructor
  · intro s p d h
    have := hpub s (.descend p d) 0 h
    exact ⟨this.steady, this.guard⟩
  · intro s p d h
    have := hpub s (.ascend p d) 0 h
    exact ⟨this.steady, this.guard⟩
  · intro s n h
    obtain ⟨fw, hg⟩ := h.guard
    have hb := big_steady ho hh C target fw s.ext.touched n
    obtain ⟨-, -, -, -, -, -, f1, -, k1⟩ := big_facts S C target fw _ n hg.touched
    rw [← invoke_big (C := C) (target := target) hg n] at hb k1
    exact ⟨h.steady.trans ⟨hb.hib, hb.muted, hb.known⟩, ⟨f1, k1⟩⟩
  · intro s n re h
    exact ⟨⟨h.steady.hib, h.steady.muted, h.steady.known⟩, h.guard⟩
  · intro s n h
    exact ⟨⟨h.steady.hib, h.steady.muted, h.steady.known⟩, h.guard⟩

theorem runTop_came {S : Setup} (ho : S.Ordinary) (hh : S.hiber.active = false) (o : Options κ) (C : Client κ) (disk : Disk) (tree target d)
    (w : World κ) (hg : ∃ fw, GuardOK S fw w.guard) : Came S w (runTop S o C disk tree target ⟨d, w, []⟩).2 :=
  top_inv (came_preserved ho hh C tree target w) _ _ _ _ _ _ ⟨.refl w, hg⟩ (fun _ _ => ⟨⟨rfl, rfl, fun _ => rfl⟩, hg⟩)

theorem setup_metrics_zero (S : Setup) (j) : S.metrics j = none ∨ S.metrics j = some 0 := by
  have single : ∀ (m : Metrics) k, (m j = none ∨ m j = some 0) → ((m.single k) j = none ∨ (m.single k) j = some 0) := by
    intro m k h
    simp only [Metrics.single]
    split
    · right; rfl
    · exact h
  have many : ∀ ks (m : Metrics), (m j = none ∨ m j = some 0) → ((m.many ks) j = none ∨ (m.many ks) j = some 0) := by
    intro ks
    induction ks with
    | nil => intro m h; exact h
    | cons k ks ih => intro m h; exact ih _ (single m k h)
  unfold Setup.metrics
  split
  · apply many; split
    · apply many; apply many; left; rfl
    · apply many; left; rfl
  · split
    · apply many; apply many; left; rfl
    · apply many; left; rfl

theorem merge_assoc' (a b c : Metrics) : (a.merge b).merge c = a.merge (fun j => match b j, c j with
    | some x, some y => some (x + y) | some x, none => some x | none, y => y) := by
  funext j
  simp only [Metrics.merge]
  cases a j <;> cases b j <;> cases c j <;> simp [Nat.add_assoc]

theorem merge_none (a : Metrics) : a.merge (fun _ => none) = a := by
  funext j; simp only [Metrics.merge]; cases a j <;> rfl

end Traverse
