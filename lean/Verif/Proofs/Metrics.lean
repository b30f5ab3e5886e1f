import Verif.Proofs.Chain
import Verif.Proofs.Invariant2
namespace Traverse
variable {κ : Type}

theorem iterate_inv {ω : Type} {impl : ω → Role → Option (Link ω)} {Q : ω → Prop}
    (h : ∀ w r l, impl w r = some l → ∀ p, Q w → Q (l w p).1) (L : List Role) :
    ∀ w p, Q w → Q (iterate impl L w p).1 := by
  induction L with
  | nil => intro w p hw; exact hw
  | cons r L ih =>
    intro w p hw
    rcases hl : impl w r with _ | l
    · rw [iterate, hl]; exact hw
    · rw [iterate_one hl]
      have h1 := h w r l hl p hw
      split
      · exact ih _ _ h1
      · exact h1

theorem invoke_inv {S : Setup} {C : Client κ} {target} {Q : World κ → Prop}
    (hl : ∀ r l, linkOf S C target r = some l → ∀ w p, Q w → Q (l w p).1)
    (hg : ∀ w g, Q w → Q { w with guard := g }) (hst : ∀ w st, Q w → Q { w with steps := st })
    (w : World κ) (n : Node) (hw : Q w) : Q (World.invoke S C target w n).1 := by
  unfold World.invoke
  split
  · exact hst _ _ (hl .anchor _ rfl w ⟨n, []⟩ hw)
  · simp only
    apply hst
    apply iterate_inv _ _ _ _ (hg _ _ hw)
    intro w r l hrl p hw
    unfold World.link at hrl
    split at hrl
    · exact hl r l hrl w p hw
    · cases hrl

theorem linkOf_inv {S : Setup} {C : Client κ} {target} {Q : World κ → Prop}
    (hclient : ∀ w p, Q w → Q (anchorLink C w p).1)
    (hpub : ∀ w n, Q w → Q (w.publish C n)) (hhib : ∀ w b, Q w → Q { w with hib := b })
    (hmetric : ∀ w k n, k ≠ .filesInvoked → k ≠ .dirsInvoked → Q w → Q { w with metrics := w.metrics.times k n })
    (hfw : ∀ w g m, Q w → Q { w with guard := g, muted := m }) :
    ∀ r l, linkOf S C target r = some l → ∀ w p, Q w → Q (l w p).1 := by
  have hchild : ∀ f (w : World κ) p, Q w → Q (childScheme S f w p).1 := by
    intro f w p hw
    unfold childScheme
    split
    · exact hw
    · exact hmetric _ _ _ (by decide) (by decide) (hmetric w _ _ (by decide) (by decide) hw)
  have hprim : ∀ P (w : World κ) p, Q w → Q (primaryScheme P w p).1 := by
    intro P w p hw
    unfold primaryScheme
    cases P with
    | node f =>
      simp only
      split
      · exact hw
      · split <;> exact hmetric w _ _ (by decide) (by decide) hw
    | sample m =>
      simp only
      split
      · exact hw
      · split
        · exact hw
        · split <;> exact hmetric w _ _ (by decide) (by decide) hw
  intro r l h w p hw
  cases r <;> simp only [linkOf, Option.some.injEq] at h <;> (try subst h)
  · cases h
  · exact hclient w p hw
  · unfold filterLink
    by_cases hd : S.filter.dies p.node = true
    · rw [if_pos hd]; exact hw
    rw [if_neg hd]
    unfold schemeLink
    rcases S.filter.primary with _ | P <;> rcases S.filter.child with _ | f <;> simp only
    · exact hw
    · exact hchild f w p hw
    · exact hprim P w p hw
    · have h1 := hprim P w p hw
      rcases hP : primaryScheme P w p with ⟨w1, p1, t⟩
      rw [hP] at h1
      have h2 := hchild f w1 p1 h1
      rcases hC : childScheme S f w1 p1 with ⟨w2, p2, t2⟩
      rw [hC] at h2
      rcases t with ⟨_ | _, e⟩ | _ <;> simp only [hC]
      · exact h1
      · rcases t2 with ⟨_, e2⟩ | _ <;> exact h2
      · exact h1
  · unfold hiberLink
    by_cases hd : S.hiber.dies w.hib p.node = true
    · rw [if_pos hd]; exact hw
    rw [if_neg hd]
    unfold hiberNext
    cases w.hib <;> simp only
    · exact hw
    · split
      · exact hhib _ _ (hpub _ _ hw)
      · exact hw
    · split
      · exact hhib _ _ (hpub _ _ hw)
      · exact hw
    · exact hw
  · exact hw
  · unfold nannyLink
    split
    · exact hw
    · exact hmetric w _ _ (by decide) (by decide) hw
  · unfold fastwardLink
    split
    · exact hw
    · exact hw
    · exact hfw _ _ _ hw

/-! ### Counting -/

theorem Metrics.count_times (m : Metrics) (k j : Metric) (n : Nat) :
    (m.times k n).count j = if j = k ∧ (m k).isSome then m.count j + n else m.count j := by
  unfold Metrics.times Metrics.count
  by_cases h : j = k
  · subst h
    rcases m j with _ | v <;> simp
  · simp [h]
theorem Metrics.isSome_times (m : Metrics) (k j : Metric) (n : Nat) : ((m.times k n) j).isSome = (m j).isSome := by
  unfold Metrics.times
  by_cases h : j = k
  · subst h; simp
  · simp [h]

theorem ofKind_append (d) (a b : List Node) : ofKind d (a ++ b) = ofKind d a + ofKind d b := by
  simp [ofKind]

/-- The counters of handler calls are right, now and as seen by every call. -/
structure CountsOK (base : Bool → Nat) (w : World κ) : Prop where
  reg : ∀ d, (w.metrics (invokedMetric d)).isSome = true
  now : ∀ d, w.metrics.count (invokedMetric d) = base d + ofKind d w.called
  seen : ∀ h1 hit h2, w.hits = h1 ++ hit :: h2 → ∀ d, hit.seen.count (invokedMetric d) =
    base d + ofKind d ((h1 ++ [hit]).map (fun h => h.parcel.node))

theorem CountsOK.same {base} {w w' : World κ} (h : CountsOK base w) (hm : w'.metrics = w.metrics)
    (hh : w'.hits = w.hits) : CountsOK base w' := by
  constructor
  · rw [hm]; exact h.reg
  · unfold World.called; rw [hm, hh]; exact h.now
  · rw [hh]; exact h.seen

theorem CountsOK.anchor {base} {w : World κ} (C : Client κ) (h : CountsOK base w) (p) :
    CountsOK base (anchorLink C w p).1 := by
  have hk : (if p.node.isDir then Metric.dirsInvoked else .filesInvoked) = invokedMetric p.node.isDir := by
    unfold invokedMetric; rfl
  have hnow : ∀ d, (w.metrics.tick (invokedMetric p.node.isDir)).count (invokedMetric d) =
      base d + ofKind d ((w.hits.map (fun h => h.parcel.node)) ++ [p.node]) := by
    intro d
    have hj : invokedMetric d = invokedMetric p.node.isDir ↔ d = p.node.isDir := by
      cases d <;> cases p.node.isDir <;> decide
    rw [Metrics.tick, Metrics.count_times, h.now d, h.reg]
    simp only [hj, and_true, ofKind_append]
    by_cases hd : d = p.node.isDir
    · subst hd; simp [ofKind, World.called]; omega
    · rw [if_neg hd]
      have : ofKind d [p.node] = 0 := by
        simp [ofKind]; exact fun hc => hd hc.symm
      rw [this]; rfl
  constructor
  · intro d
    show ((w.metrics.tick _) (invokedMetric d)).isSome = true
    rw [Metrics.tick, Metrics.isSome_times]
    exact h.reg d
  · intro d
    unfold anchorLink World.called
    simp only [hk, List.map_append, List.map_cons, List.map_nil]
    exact hnow d
  · intro h1 hit h2 heq d
    unfold anchorLink at heq
    simp only [hk] at heq
    rcases List.eq_nil_or_concat h2 with rfl | ⟨h2', x, rfl⟩
    · have := List.append_inj' heq rfl
      obtain ⟨e1, e2⟩ := this
      simp only [List.cons.injEq, and_true] at e2
      subst e2 e1
      simp only [List.map_append, List.map_cons, List.map_nil]
      exact hnow d
    · have e : h1 ++ hit :: (h2'.concat x) = (h1 ++ hit :: h2') ++ [x] := by simp
      rw [e] at heq
      exact h.seen h1 hit h2' (List.append_inj' heq rfl).1 d

theorem CountsOK.metric {base} {w : World κ} (h : CountsOK base w) (k n) (h1 : k ≠ .filesInvoked)
    (h2 : k ≠ .dirsInvoked) : CountsOK base { w with metrics := w.metrics.times k n } := by
  have hk : ∀ d, invokedMetric d ≠ k := by intro d; cases d <;> simp [invokedMetric, Ne.symm h1, Ne.symm h2]
  constructor
  · intro d; simp only [Metrics.isSome_times]; exact h.reg d
  · intro d
    simp only [Metrics.count_times, hk d, false_and, if_false]
    exact h.now d
  · exact h.seen

theorem CountsOK.invoke {base} {S : Setup} {C : Client κ} {target} {w : World κ} (h : CountsOK base w) (n) :
    CountsOK base (World.invoke S C target w n).1 := by
  refine invoke_inv (linkOf_inv (fun w p hw => hw.anchor C p) ?_ ?_ ?_ ?_) ?_ ?_ w n h
  · intro w n hw; exact hw.same (by simp) (by simp)
  · intro w b hw; exact hw.same rfl rfl
  · intro w k n h1 h2 hw; exact hw.metric k n h1 h2
  · intro w g m hw; exact hw.same rfl rfl
  · intro w g hw; exact hw.same rfl rfl
  · intro w st hw; exact hw.same rfl rfl

theorem CountsOK.traverse {base} (S : Setup) (C : Client κ) (tree target) (t : Tree) (ps pp) (s : St (World κ))
    (h : CountsOK base s.ext) : CountsOK base (traverse S.nav (S.env C tree target) ps pp t s).2.ext := by
  refine traverse_inv (Inv := fun s => CountsOK base s.ext) ⟨?_, ?_, ?_, ?_, ?_⟩ S.nav t ps pp s h
  · intro s p d hs; exact hs.same (by simp [St.doDescend, Setup.env]) (by simp [St.doDescend, Setup.env])
  · intro s p d hs; exact hs.same (by simp [St.doAscend, Setup.env]) (by simp [St.doAscend, Setup.env])
  · intro s n hs; exact hs.invoke n
  · intro s n re hs; exact hs.same rfl rfl
  · intro s n hs; exact hs.same rfl rfl

theorem setup_metrics_invoked (S : Setup) (d : Bool) : S.metrics (invokedMetric d) = some 0 := by
  unfold Setup.metrics
  split <;> split <;> cases d <;> rfl

theorem CountsOK.start (S : Setup) (x : κ) (carried : Metrics) :
    CountsOK (fun d => carried.count (invokedMetric d)) (S.world x carried) := by
  constructor
  · intro d
    simp only [Setup.world, Metrics.merge, setup_metrics_invoked]
    rcases carried (invokedMetric d) with _ | v <;> rfl
  · intro d
    simp only [Setup.world, Metrics.merge, Metrics.count, setup_metrics_invoked, World.called]
    rcases carried (invokedMetric d) with _ | v <;> simp [ofKind]
  · intro h1 hit h2 he
    simp [Setup.world] at he

end Traverse
