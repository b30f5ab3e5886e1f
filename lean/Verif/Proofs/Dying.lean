import Verif.Proofs.Calm
import Verif.Proofs.Saga
import Verif.Proofs.Session2
namespace Traverse
variable {κ : Type}

/-! ### A session whose node filter panics -/

theorem dying_step (S : Setup) (hr : S.resume = none) (hh : S.hiber.active = false) (hf : S.filter.active = true) (C : Client κ)
    (target fw) (w : World κ) (hg : GuardOK S fw w.guard) (n : Node) (hd : S.filter.dies n = true) :
    (World.invoke S C target w n).2 = .panic ∧ (World.invoke S C target w n).1.hits = w.hits ∧
    (World.invoke S C target w n).1.muted = w.muted ∧ ∃ fw', GuardOK S fw' (World.invoke S C target w n).1.guard := by
  rw [invoke_big hg n]
  obtain ⟨-, -, -, -, -, -, fw', -, h6⟩ := big_facts S C target fw w.touched n hg.touched
  have hb : S.big C target fw w.touched n = (w.touched.noted n (S.rolesH ++ S.rolesF), .panic) := by
    unfold Setup.big Setup.stageH
    rw [hh]
    simp only [Bool.false_eq_true, if_false, passOn_apply]
    unfold Setup.stageF
    rw [hf]
    simp only [if_true, filterLink, hd]
    rfl
  rw [hb] at h6 ⊢
  exact ⟨rfl, rfl, rfl, fw', h6⟩

/-- What is known of a session with a node filter, no hibernation and a handler that returns nil. -/
structure DyingInv (S : Setup) (s : St (World κ)) : Prop where
  guard : ∃ fw, GuardOK S fw s.ext.guard
  muted : ∀ e, s.ext.muted e = false
  answers : ∀ c ∈ calls s.log, c.2 = if S.filter.dies c.1 then .panic else .ok none
  called : s.ext.called = (invoked s.log).filter (fun n => !S.filter.dies n && S.accepts n)

theorem DyingInv.same {S : Setup} {s s' : St (World κ)} (h : DyingInv S s) (hg : s'.ext.guard = s.ext.guard)
    (hm : s'.ext.muted = s.ext.muted) (hh : s'.ext.hits = s.ext.hits) (hl : calls s'.log = calls s.log) : DyingInv S s' := by
  refine ⟨by rw [hg]; exact h.guard, by rw [hm]; exact h.muted, by rw [hl]; exact h.answers, ?_⟩
  unfold World.called invoked
  rw [hh, hl]; exact h.called

theorem dyingInv_preserved (S : Setup) (hr : S.resume = none) (hh : S.hiber.active = false) (hf : S.filter.active = true)
    (hc : S.filter.child = none) (C : Client κ) (hnil : Handler.Nil C.handler) (tree target : Path) :
    PreservedOn (GoodNode S.nav) (S.env C tree target) (DyingInv S) := by
  refine ⟨?_, ?_, ?_, ?_, ?_⟩
  · intro s p d h
    exact h.same (by simp [St.doDescend, Setup.env]) (by simp [St.doDescend, Setup.env]) (by simp [St.doDescend, Setup.env])
      (by simp [St.doDescend, calls])
  · intro s p d h
    exact h.same (by simp [St.doAscend, Setup.env]) (by simp [St.doAscend, Setup.env]) (by simp [St.doAscend, Setup.env])
      (by simp [St.doAscend, calls])
  · intro s n hn h
    obtain ⟨fw, hg⟩ := h.guard
    have e1 : (s.doInvoke (S.env C tree target) n).2.ext = (World.invoke S C target s.ext n).1 := rfl
    have e2 : calls (s.doInvoke (S.env C tree target) n).2.log = calls s.log ++ [(n, (World.invoke S C target s.ext n).2)] := by
      simp [St.doInvoke, Setup.env, calls]
    have key : (World.invoke S C target s.ext n).2 = (if S.filter.dies n then .panic else .ok none) ∧
        (World.invoke S C target s.ext n).1.called = s.ext.called ++ (if !S.filter.dies n && S.accepts n then [n] else []) ∧
        (World.invoke S C target s.ext n).1.muted = s.ext.muted ∧ ∃ fw', GuardOK S fw' (World.invoke S C target s.ext n).1.guard := by
      cases hd : S.filter.dies n
      · have hb := invoke_big (C := C) (target := target) hg n
        obtain ⟨-, -, -, -, -, -, fw', -, h6⟩ := big_facts S C target fw s.ext.touched n hg.touched
        have hb' : S.big C target fw s.ext.touched n = S.calmed.big C target fw s.ext.touched n := by
          unfold Setup.big Setup.stageH Setup.stageF
          have h1 : S.calmed.hiber.active = false := hh
          have h2 : S.calmed.filter.active = true := hf
          rw [hh, h1, hf, h2]
          simp only [Bool.false_eq_true, if_false, passOn_apply, if_true]
          have h3 : filterLink S s.ext.touched ⟨n, []⟩ = filterLink S.calmed s.ext.touched ⟨n, []⟩ := by
            simp only [filterLink, hd, Setup.calmed]
            rfl
          rw [h3]
          rfl
        have hact : ∀ w : World κ, S.calmed.hibOf w = .active := by
          intro w; simp [Setup.hibOf, show S.calmed.hiber.active = false from hh]
        have hp := big_plain S.calmed C target fw s.ext.touched n (by show S.resume ≠ _; simp [hr]) hn
          ⟨calmed_calm S, fun hx => by rw [show S.calmed.filter.child = none from hc] at hx; cases hx⟩
          (by rw [hact]; simp) ⟨h.muted _, h.muted _⟩
        rw [← hb', ← hb] at hp
        rw [← hb] at h6
        have haw : S.calmed.awake s.ext.touched n = true := by
          unfold Setup.awake
          rw [hact, (hibStep_inactive (show S.calmed.hiber.active = false from hh) n).1]
        have hacc : S.calmed.accepts n = S.accepts n := rfl
        refine ⟨?_, ?_, hp.muted, fw', h6⟩
        · simp only [Bool.false_eq_true, if_false]
          cases ha : S.accepts n
          · exact hp.rejected haw ha
          · obtain ⟨k, hk⟩ := hp.handled haw ha
            rw [hk]; exact hnil k _
        · unfold World.called
          rw [hp.hits, haw, hacc]
          cases ha : S.accepts n
          · simp [World.touched]
          · simp [World.touched]
      · obtain ⟨h1, h2, h3, h4⟩ := dying_step S hr hh hf C target fw s.ext hg n hd
        refine ⟨by rw [h1]; rfl, ?_, h3, h4⟩
        unfold World.called; rw [h2]; simp
    obtain ⟨k1, k2, k3, k4⟩ := key
    refine ⟨by rw [e1]; exact k4, by rw [e1, k3]; exact h.muted, ?_, ?_⟩
    · rw [e2]
      intro c hm
      rcases List.mem_append.1 hm with hm | hm
      · exact h.answers c hm
      · simp only [List.mem_singleton] at hm; subst hm; exact k1
    · rw [e1, k2, h.called]
      unfold invoked
      rw [e2]
      cases hx : (!S.filter.dies n && S.accepts n) <;> simp [hx]
  · intro s n re _ h
    exact h.same rfl rfl rfl (by simp [St.doAsk, calls])
  · intro s n h
    exact h.same rfl rfl rfl (by simp [St.doRescue, calls])

theorem dyingInv_session (S : Setup) (hr : S.resume = none) (hh : S.hiber.active = false) (hf : S.filter.active = true)
    (hc : S.filter.child = none) (C : Client κ) (hnil : Handler.Nil C.handler) (x : κ) (carried : Metrics) (target pre : Path) (fs : FS) :
    DyingInv S (S.session C x carried target pre fs).2 :=
  traverse_invOn (dyingInv_preserved S hr hh hf hc C hnil _ target) S.nav
    (fun ps path t d => mkNode_good S.nav ps path t d) _ [] pre _
    ⟨⟨true, guard_ok S⟩, fun e => by simp [Setup.world, St.fresh, hr], by simp [St.fresh, calls], by simp [World.called, Setup.world, St.fresh, invoked, calls]⟩

end Traverse
