import Verif.Proofs.Session
import Verif.Proofs.Walk
namespace Traverse
variable {κ : Type}

theorem filter_isHib_pub {w : World κ} {C : Client κ} {n : Note} (hn : n ≠ .wake) (hn2 : n ≠ .sleep) :
    (w.publish C n).tape.filter Obs.isHib = w.tape.filter Obs.isHib := by
  unfold World.publish
  split
  · rfl
  · cases n <;> simp [Obs.isHib] at hn hn2 ⊢

theorem hibNote_isHib (h : HiberOpts) (st n) : (hibNote h st n).filter Obs.isHib = hibNote h st n := by
  unfold hibNote
  cases st <;> simp only <;> (try split) <;> rfl

structure PlainInv (S : Setup) (carried : Metrics) (s : St (World κ)) : Prop where
  guard : ∃ fw, GuardOK S fw s.ext.guard
  muted : ∀ e, s.ext.muted e = false
  hib : S.hibOf s.ext = (hibRun S.hiber S.hiber.launch (invoked s.log)).1
  defd : S.hibOf s.ext ≠ .undefined
  tape : s.ext.tape.filter Obs.isHib = hibTape S.hiber S.accepts S.hiber.launch (invoked s.log)
  called : s.ext.called = (hibRun S.hiber S.hiber.launch (invoked s.log)).2.filter S.accepts
  children : ∀ h ∈ s.ext.hits, h.parcel.children = S.childrenOf h.parcel.node
  reached : s.ext.reached .clientFilter =
    if S.filter.active then (hibRun S.hiber S.hiber.launch (invoked s.log)).2 else []

theorem PlainInv.same {S : Setup} {carried} {s s' : St (World κ)} (h : PlainInv S carried s)
    (hg : s'.ext.guard = s.ext.guard) (hm : s'.ext.muted = s.ext.muted) (hh : s'.ext.hib = s.ext.hib)
    (ht : s'.ext.tape.filter Obs.isHib = s.ext.tape.filter Obs.isHib) (hhi : s'.ext.hits = s.ext.hits)
    (hst : s'.ext.steps = s.ext.steps) (hl : invoked s'.log = invoked s.log) : PlainInv S carried s' := by
  have e1 : S.hibOf s'.ext = S.hibOf s.ext := by simp [Setup.hibOf, hh]
  refine ⟨by rw [hg]; exact h.guard, by rw [hm]; exact h.muted, by rw [e1, hl]; exact h.hib, by rw [e1]; exact h.defd,
    by rw [ht, hl]; exact h.tape, ?_, by rw [hhi]; exact h.children, ?_⟩
  · unfold World.called; rw [hhi, hl]; exact h.called
  · unfold World.reached; rw [hst, hl]; exact h.reached

theorem hibStep_defd (h : HiberOpts) (st n) (hs : st ≠ .undefined) : (hibStep h st n).1 ≠ .undefined := by
  unfold hibStep
  cases st <;> simp only <;> (try split) <;> simp_all

theorem doInvoke_plain {S : Setup} {C : Client κ} {carried tree target} {s : St (World κ)} (h : PlainInv S carried s)
    (ho : S.Ordinary) (hs : S.Sane) (n : Node) (hn : GoodNode S.nav n) :
    PlainStep S C s.ext n (s.doInvoke (S.env C tree target) n).2.ext (s.doInvoke (S.env C tree target) n).1 ∧
    ∃ fw, GuardOK S fw (s.doInvoke (S.env C tree target) n).2.ext.guard := by
  obtain ⟨fw, hg⟩ := h.guard
  have hb := invoke_big (C := C) (target := target) hg n
  have e1 : (s.doInvoke (S.env C tree target) n).2.ext = (S.big C target fw s.ext.touched n).1 := by
    simp only [St.doInvoke, Setup.env]; rw [hb]
  have e2 : (s.doInvoke (S.env C tree target) n).1 = (S.big C target fw s.ext.touched n).2 := by
    simp only [St.doInvoke, Setup.env]; rw [hb]
  have hr : S.resume ≠ some .fastward := by rcases ho with h | h <;> simp [h]
  have hp := big_plain S C target fw s.ext.touched n hr hn hs h.defd ⟨h.muted _, h.muted _⟩
  obtain ⟨_, _, _, _, _, _, fw', _, h6⟩ := big_facts S C target fw s.ext.touched n hg.touched
  rw [e1, e2]
  exact ⟨⟨hp.hib, hp.muted, hp.saves, hp.tape, hp.metrics, hp.hits, hp.slept, hp.rejected, hp.client, hp.reached, hp.handled⟩,
    fw', h6⟩

theorem plainInv_preserved (S : Setup) (ho : S.Ordinary) (hs : S.Sane) (C : Client κ) (carried : Metrics)
    (tree target : Path) : PreservedOn (GoodNode S.nav) (S.env C tree target) (PlainInv S carried) := by
  refine ⟨?_, ?_, ?_, ?_, ?_⟩
  · intro s p d h
    refine h.same (by simp [St.doDescend, Setup.env]) (by simp [St.doDescend, Setup.env])
      (by simp [St.doDescend, Setup.env]) ?_ (by simp [St.doDescend, Setup.env]) (by simp [St.doDescend, Setup.env])
      (by simp [St.doDescend, invoked, calls])
    exact filter_isHib_pub (by simp) (by simp)
  · intro s p d h
    refine h.same (by simp [St.doAscend, Setup.env]) (by simp [St.doAscend, Setup.env])
      (by simp [St.doAscend, Setup.env]) ?_ (by simp [St.doAscend, Setup.env]) (by simp [St.doAscend, Setup.env])
      (by simp [St.doAscend, invoked, calls])
    exact filter_isHib_pub (by simp) (by simp)
  · intro s n hn h
    obtain ⟨hp, hg⟩ := doInvoke_plain (C := C) (tree := tree) (target := target) h ho hs n hn
    have hlog : invoked (s.doInvoke (S.env C (tree) target) n).2.log = invoked s.log ++ [n] := by
      simp [St.doInvoke, invoked, calls]
    have ha : S.awake s.ext n = (hibStep S.hiber (S.hibOf s.ext) n).2 := rfl
    refine ⟨hg, ?_, ?_, ?_, ?_, ?_, ?_, ?_⟩
    · rw [hp.muted]; exact h.muted
    · rw [hp.hib, hlog, hibRun_append, h.hib]; rfl
    · rw [hp.hib]; exact hibStep_defd _ _ _ h.defd
    · rw [hp.tape, hlog, hibTape_append, List.filter_append, List.filter_append, h.tape, hibNote_isHib, ← h.hib, ha]
      simp only [hibTape, List.append_nil, List.append_assoc]
      congr 2
      split <;> rfl
    · unfold World.called
      rw [hp.hits, hlog, hibRun_append, List.map_append, List.filter_append]
      congr 1
      · exact h.called
      · simp only [← h.hib, hibRun, List.append_nil, ha]
        cases (hibStep S.hiber (S.hibOf s.ext) n).2 <;> cases hc : S.accepts n <;> simp [hc]
    · intro hit hh
      rw [hp.hits] at hh
      rcases List.mem_append.1 hh with hh | hh
      · exact h.children hit hh
      · split at hh
        · simp only [List.mem_singleton] at hh; subst hh; rfl
        · cases hh
    · unfold World.reached
      rw [hp.reached, hlog, hibRun_append, List.map_append]
      have := h.reached
      unfold World.reached at this
      rw [this]
      simp only [← h.hib, hibRun, List.append_nil, ha]
      cases S.filter.active <;> cases (hibStep S.hiber (S.hibOf s.ext) n).2 <;> simp
  · intro s n re _ h
    exact h.same rfl rfl rfl rfl rfl rfl (by simp [St.doAsk, invoked, calls])
  · intro s n h
    exact h.same rfl rfl rfl rfl rfl rfl (by simp [St.doRescue, invoked, calls])

theorem plainInv_start (S : Setup) (ho : S.Ordinary) (x : κ) (carried : Metrics) :
    PlainInv S carried (St.fresh (S.world x carried)) := by
  · have hl : S.hibOf (S.world x carried) = S.hiber.launch := by
      unfold Setup.hibOf Setup.world
      cases ha : S.hiber.active
      · have : S.hiber.wakeAt = none := by unfold HiberOpts.active at ha; simp at ha; exact ha.1
        simp [HiberOpts.launch, this]
      · simp
    refine ⟨⟨true, guard_ok S⟩, ?_, hl, ?_, rfl, rfl, by simp [Setup.world, St.fresh], ?_⟩
    · intro e
      rcases ho with h | h <;> simp [Setup.world, St.fresh, h]
    · show S.hibOf (S.world x carried) ≠ _
      rw [hl]; unfold HiberOpts.launch; split <;> simp
    · simp [World.reached, Setup.world, St.fresh, invoked, calls, hibRun]

theorem plainInv_session (S : Setup) (ho : S.Ordinary) (hs : S.Sane) (C : Client κ) (x : κ) (carried : Metrics)
    (target pre : Path) (fs : FS) : PlainInv S carried (S.session C x carried target pre fs).2 :=
  traverse_invOn (plainInv_preserved S ho hs C carried _ target) S.nav
    (fun ps path t d => mkNode_good S.nav ps path t d) _ [] pre _ (plainInv_start S ho x carried)

end Traverse
