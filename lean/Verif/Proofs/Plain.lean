import Verif.Proofs.Spawn3
import Verif.Proofs.Session3
import Verif.Model.Resume
/-
Sessions without filter, hibernation and sampling whose handler always returns nil.
-/
namespace Traverse
variable {κ : Type}

/-- The handler always returns nil. -/
def Handler.Nil (h : κ → Parcel → κ × Reply) : Prop := ∀ k p, (h k p).2 = .ok none

/-- Options that filter, hibernate, sample and limit nothing; hooks and skip handler are the defaults, `key` being what
entries are sorted by. The behaviours (other than a depth limit) and the other handlers are left open. -/
structure Options.Plain (key : String → String) (o : Options κ) : Prop where
  custom : o.filter.custom = none
  node : o.filter.node = none
  child : o.filter.child = none
  sample : o.filter.sample = none
  wakeAt : o.hibernate.wakeAt = none
  sleepAt : o.hibernate.sleepAt = none
  sampling : o.sampling.type = .undefined
  depth : o.behaviours.cascade.afterwards.depth = 0
  read : ∀ r, o.hooks.readDirectory.invoke r = defaultRead r.1 r.2
  status : ∀ r, o.hooks.queryStatus.invoke r = r
  sort : SortsBy key o.hooks.sort.invoke
  skip : ∀ k n re, (o.defects.skip k n re).2 = (.none, none)

/-- What is built of them. -/
def plainSetup (nav : Nav) (res : Option Strategy) (h : HiberOpts) : Setup := { nav, hiber := h, resume := res }

theorem plain_built {key} {P : Platform κ} {o : Options κ} (hp : o.Plain key) (sub res) (hsub : sub ≠ .undefined) :
    buildRest P sub res o.afterwards = .ready (plainSetup (o.afterwards.nav sub) res
      { inclusiveWake := o.hibernate.inclusiveWake, inclusiveSleep := o.hibernate.inclusiveSleep }) o.afterwards := by
  have e1 : o.afterwards.filter = o.filter := rfl
  have e2 : o.afterwards.hibernate = o.hibernate := rfl
  have e3 : o.afterwards.sampling = o.sampling := rfl
  have hs : o.sampling.active = false := by simp [SamplingOptions.active, hp.sampling]
  have hr : registerFilter P.engine o.afterwards = .ok ({}, o.afterwards) := by
    simp [registerFilter, createPrimary, createChild, FilterOptions.nodeActive, e1, hp.custom, hp.node, hp.child, hp.sample]
  have hh : initHibernation P.engine o.afterwards = .ok { inclusiveWake := o.hibernate.inclusiveWake, inclusiveSleep := o.hibernate.inclusiveSleep } := by
    simp [initHibernation, makeTrigger, e2, hp.wakeAt, hp.sleepAt]
  simp only [buildRest, hsub, if_false, hr, hh, initSampling, e3, hs]
  simp only [Bool.false_eq_true, if_false, e3, hs]; rfl

theorem hibStep_plain {hb : HiberOpts} (hsl : hb.sleepAt = none) (n) : hibStep hb .active n = (.active, true) := by
  simp [hibStep, HiberOpts.sleep, hsl]

theorem hibRun_plain {hb : HiberOpts} (hsl : hb.sleepAt = none) (l) : hibRun hb .active l = (.active, l) := by
  induction l with
  | nil => rfl
  | cons a as ih => simp only [hibRun, hibStep_plain hsl, ih]; rfl

/-- The invariant of a plain session. -/
def PlainNil (S : Setup) (carried : Metrics) (s : St (World κ)) : Prop := PlainInv S carried s ∧ ∀ ev ∈ s.log, ev.Nil

theorem plainNil_accepting {nav : Nav} {res : Option Strategy} {hb : HiberOpts} (hw : hb.wakeAt = none) (hsl : hb.sleepAt = none)
    (ho : (plainSetup nav res hb).Ordinary) (C : Client κ) (carried) (tree target : Path)
    (hh : Handler.Nil C.handler) (hk : ∀ k n re, (C.skip k n re).2 = (.none, none)) :
    Accepting nav ((plainSetup nav res hb).env C tree target) (PlainNil (plainSetup nav res hb) carried) where
  nil s h := h.2
  keeps t ps pp s hs := by
    have hsane : (plainSetup nav res hb).Sane :=
      ⟨⟨fun _ => rfl, by intro h; simp [plainSetup, HiberOpts.active, hw, hsl] at h⟩, by intro h; simp [plainSetup] at h⟩
    refine traverse_invOn (P := GoodNode nav) ?_ nav (fun ps path t d => mkNode_good nav ps path t d) t ps pp s hs
    refine (plainInv_preserved (plainSetup nav res hb) ho hsane C carried tree target).with
      (Q := fun s => ∀ ev ∈ s.log, ev.Nil) ?_ ?_ ?_ ?_ ?_
    · intro s p d _ h ev hev
      simp only [St.doDescend, List.mem_append, List.mem_singleton] at hev
      rcases hev with hev | rfl
      · exact h ev hev
      · trivial
    · intro s p d _ h ev hev
      simp only [St.doAscend, List.mem_append, List.mem_singleton] at hev
      rcases hev with hev | rfl
      · exact h ev hev
      · trivial
    · intro s n hn hI h ev hev
      have hrep : (s.doInvoke ((plainSetup nav res hb).env C tree target) n).1 = .ok none := by
        obtain ⟨hp, _⟩ := doInvoke_plain (C := C) (tree := tree) (target := target) hI ho hsane n hn
        have hacc : (plainSetup nav res hb).accepts n = true := rfl
        have hst : (plainSetup nav res hb).hibOf s.ext = .active := by
          rw [hI.hib]
          have h0 : hb.launch = .active := by simp [HiberOpts.launch, hw]
          show (hibRun hb hb.launch _).1 = .active
          rw [h0, hibRun_plain hsl]
        have haw : (plainSetup nav res hb).awake s.ext n = true := by
          unfold Setup.awake
          rw [hst]
          show (hibStep hb .active n).2 = true
          rw [hibStep_plain hsl]
        obtain ⟨k, hk⟩ := hp.handled haw hacc
        rw [hk]; exact hh _ _
      have hlog : (s.doInvoke ((plainSetup nav res hb).env C tree target) n).2.log = s.log ++
          [.invoke n (s.doInvoke ((plainSetup nav res hb).env C tree target) n).1] := rfl
      rw [hlog, hrep, List.mem_append, List.mem_singleton] at hev
      rcases hev with hev | rfl
      · exact h ev hev
      · rfl
    · intro s n re _ _ h ev hev
      simp only [St.doAsk, List.mem_append, List.mem_singleton] at hev
      rcases hev with hev | rfl
      · exact h ev hev
      · have := hk s.ext.client n re
        exact ⟨congrArg Prod.fst this, congrArg Prod.snd this⟩
    · intro s n _ h ev hev
      simp only [St.doRescue, List.mem_append, List.mem_singleton] at hev
      rcases hev with hev | rfl
      · exact h ev hev
      · trivial

/-- The handler was called for what the navigator met. -/
theorem plain_called {nav : Nav} {res : Option Strategy} {hb : HiberOpts} (hw : hb.wakeAt = none) (hsl : hb.sleepAt = none)
    {carried} {s : St (World κ)} (h : PlainInv (plainSetup nav res hb) carried s) : s.ext.called = invoked s.log := by
  rw [h.called]
  have hacc : (plainSetup nav res hb).accepts = fun _ => true := rfl
  have h0 : hb.launch = .active := by simp [HiberOpts.launch, hw]
  rw [hacc, List.filter_eq_self.2 (fun _ _ => rfl)]
  show (hibRun hb hb.launch _).2 = _
  rw [h0, hibRun_plain hsl]

theorem plain_start {nav : Nav} {res : Option Strategy} {hb : HiberOpts} (ho : (plainSetup nav res hb).Ordinary) (C : Client κ)
    (x : κ) (carried) (d : Int) (tree : Path) :
    PlainNil (plainSetup nav res hb) carried (⟨d, ((plainSetup nav res hb).world x carried).publish C (.begin tree), []⟩ : St (World κ)) := by
  refine ⟨?_, by simp⟩
  have := plainInv_start (plainSetup nav res hb) ho x carried
  refine this.same (by simp [St.fresh]) (by simp [St.fresh]) (by simp [St.fresh]) ?_ (by simp [St.fresh]) (by simp [St.fresh]) rfl
  exact filter_isHib_pub (by simp) (by simp)

end Traverse
