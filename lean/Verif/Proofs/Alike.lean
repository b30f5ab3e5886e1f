import Verif.Spec.Alike
import Verif.Proofs.Again
/-
Two clients that answer alike: everything around them is the same.
-/
namespace Traverse
variable {κ κ' : Type}

/-- The world of another client. -/
def World.put (w : World κ) (k : κ') : World κ' := ⟨k, w.metrics, w.hib, w.guard, w.muted, w.tape, w.hits, w.steps, w.saves⟩

/-- Two links that do the same to the world but for the client, and answer the same. -/
def Paired (R : κ → κ' → Prop) (l : Link (World κ)) (l' : Link (World κ')) : Prop :=
  ∀ w k p, R w.client k → ∃ k', l' (w.put k) p = ((l w p).1.put k', (l w p).2) ∧ R (l w p).1.client k'

/-- What all callbacks of two clients have to do. -/
structure Client.Alike (R : κ → κ' → Prop) (C : Client κ) (C' : Client κ') : Prop where
  handler : HandlersAlike R C.handler C'.handler
  listen : ∀ k k' n, R k k' → R (C.listen k n) (C'.listen k' n)
  skip : SkipsAlike R C.skip C'.skip
  panics : PanicsAlike R C.panics C'.panics

variable {R : κ → κ' → Prop} {C : Client κ} {C' : Client κ'}

theorem publish_put (h : C.Alike R C') (w : World κ) (k n) (hr : R w.client k) :
    ∃ k', (w.put k).publish C' n = (w.publish C n).put k' ∧ R (w.publish C n).client k' := by
  unfold World.publish
  by_cases hm : w.muted n.ev = true
  · rw [if_pos hm, if_pos (show (w.put k).muted n.ev = true from hm)]; exact ⟨k, rfl, hr⟩
  · rw [if_neg hm, if_neg (show ¬ (w.put k).muted n.ev = true from hm)]; exact ⟨_, rfl, h.listen _ _ n hr⟩

/-- A link that knows nothing of the client. -/
def Unseeing (l : Link (World κ)) (l' : Link (World κ')) : Prop :=
  ∀ w k p, l' (w.put k) p = ((l w p).1.put k, (l w p).2) ∧ (l w p).1.client = w.client

theorem Unseeing.paired {l : Link (World κ)} {l' : Link (World κ')} (h : Unseeing l l') : Paired R l l' := fun w k p hr =>
  ⟨k, (h w k p).1, by rw [(h w k p).2]; exact hr⟩

theorem anchor_paired (h : C.Alike R C') : Paired R (anchorLink C) (anchorLink C') := by
  intro w k p hr
  have := h.handler _ _ p hr
  refine ⟨(C'.handler k p).1, ?_, this.2⟩
  simp only [anchorLink, World.put, this.1]

theorem hiberNext_paired (h : C.Alike R C') (o) : Paired R (hiberNext C o) (hiberNext C' o) := by
  intro w k p hr
  unfold hiberNext
  rw [show (w.put k).hib = w.hib from rfl]
  cases w.hib with
  | undefined => exact ⟨k, rfl, hr⟩
  | pending =>
    simp only
    obtain ⟨k', h1, h2⟩ := publish_put h w k .wake hr
    cases o.wake p.node
    · exact ⟨k, rfl, hr⟩
    · exact ⟨k', by simp only [if_true]; rw [h1]; rfl, h2⟩
  | active =>
    simp only
    obtain ⟨k', h1, h2⟩ := publish_put h w k .sleep hr
    cases o.sleep p.node
    · exact ⟨k, rfl, hr⟩
    · exact ⟨k', by simp only [if_true]; rw [h1]; rfl, h2⟩
  | retired => exact ⟨k, rfl, hr⟩

theorem hiber_paired (h : C.Alike R C') (o) : Paired R (hiberLink C o) (hiberLink C' o) := by
  intro w k p hr
  unfold hiberLink
  rw [show (w.put k).hib = w.hib from rfl]
  by_cases hd : o.dies w.hib p.node = true
  · simp only [if_pos hd]; exact ⟨k, rfl, hr⟩
  · simp only [if_neg hd]; exact hiberNext_paired h o w k p hr

theorem nanny_unseeing (S : Setup) : Unseeing (nannyLink S : Link (World κ)) (nannyLink S : Link (World κ')) := by
  intro w k p; unfold nannyLink; cases p.node.cargo <;> exact ⟨rfl, rfl⟩
theorem child_unseeing (S : Setup) (f) : Unseeing (childScheme S f : Link (World κ)) (childScheme S f : Link (World κ')) := by
  intro w k p; unfold childScheme; cases p.node.cargo <;> exact ⟨rfl, rfl⟩
theorem primary_unseeing (Q) : Unseeing (primaryScheme Q : Link (World κ)) (primaryScheme Q : Link (World κ')) := by
  intro w k p; unfold primaryScheme
  cases Q with
  | node f => simp only; cases f p.node <;> exact ⟨rfl, rfl⟩
  | sample mm =>
    simp only
    by_cases h : p.node.scope &&& Scope.tree = 0#32
    · simp only [if_pos h]; exact ⟨trivial, trivial⟩
    · simp only [if_neg h]; cases p.node.cargo <;> exact ⟨rfl, rfl⟩

theorem filter_unseeing (S : Setup) : Unseeing (filterLink S : Link (World κ)) (filterLink S : Link (World κ')) := by
  intro w k p
  unfold filterLink
  by_cases hd : S.filter.dies p.node = true
  · simp only [if_pos hd]; exact ⟨trivial, trivial⟩
  simp only [if_neg hd]
  unfold schemeLink
  cases S.filter.primary with
  | none =>
    cases S.filter.child with
    | none => exact ⟨rfl, rfl⟩
    | some f => exact child_unseeing S f w k p
  | some Q =>
    cases S.filter.child with
    | none => exact primary_unseeing Q w k p
    | some f =>
      simp only
      have h1 := primary_unseeing (κ' := κ') Q w k p
      rw [h1.1]
      revert h1
      rcases primaryScheme Q w p with ⟨w1, p1, t⟩
      intro h1
      simp only
      rcases t with ⟨_ | _, e⟩ | _
      · exact ⟨rfl, h1.2⟩
      · simp only
        have h2 := child_unseeing (κ' := κ') S f w1 k p1
        rw [h2.1]
        revert h2
        rcases childScheme S f w1 p1 with ⟨w2, p2, t2⟩
        intro h2
        rcases t2 with ⟨_, _⟩ | _
        · exact ⟨rfl, h2.2.trans h1.2⟩
        · exact ⟨rfl, h2.2.trans h1.2⟩
      · exact ⟨rfl, h1.2⟩

theorem fastward_unseeing (target) : Unseeing (fastwardLink target : Link (World κ)) (fastwardLink target : Link (World κ')) := by
  intro w k p; unfold fastwardLink
  rcases fastwardMatch target p.node with _ | _ | _ <;> exact ⟨rfl, rfl⟩

theorem linkOf_paired (h : C.Alike R C') (S : Setup) (target r) :
    (linkOf S C target r = none ∧ linkOf S C' target r = none) ∨
    ∃ l l', linkOf S C target r = some l ∧ linkOf S C' target r = some l' ∧ Paired R l l' := by
  cases r with
  | undefined => exact .inl ⟨rfl, rfl⟩
  | anchor => exact .inr ⟨_, _, rfl, rfl, anchor_paired h⟩
  | clientFilter => exact .inr ⟨_, _, rfl, rfl, (filter_unseeing S).paired⟩
  | hibernate => exact .inr ⟨_, _, rfl, rfl, hiber_paired h _⟩
  | sampler => exact .inr ⟨_, _, rfl, rfl, fun w k p hr => ⟨k, rfl, hr⟩⟩
  | nanny => exact .inr ⟨_, _, rfl, rfl, (nanny_unseeing S).paired⟩
  | fastward => exact .inr ⟨_, _, rfl, rfl, (fastward_unseeing target).paired⟩

theorem iterate_paired (h : C.Alike R C') (S : Setup) (target) : ∀ (rs : List Role) (w : World κ) (k p), R w.client k →
    ∃ k', iterate (World.link S C' target) rs (w.put k) p =
        ((iterate (World.link S C target) rs w p).1.put k', (iterate (World.link S C target) rs w p).2) ∧
      R (iterate (World.link S C target) rs w p).1.client k' := by
  intro rs
  induction rs with
  | nil => intro w k p hr; exact ⟨k, rfl, hr⟩
  | cons r rs ih =>
    intro w k p hr
    simp only [iterate]
    have hg : (w.put k).guard = w.guard := rfl
    simp only [World.link, hg]
    by_cases hm : r ∈ w.guard.chain
    · simp only [if_pos hm]
      rcases linkOf_paired h S target r with ⟨h1, h2⟩ | ⟨l, l', h1, h2, hp⟩
      · simp only [h1, h2]; exact ⟨k, rfl, hr⟩
      · simp only [h1, h2]
        obtain ⟨k1, e1, r1⟩ := hp w k p hr
        rw [e1]
        revert r1
        rcases l w p with ⟨w1, p1, t⟩
        intro r1
        simp only
        cases t.goesOn
        · exact ⟨k1, rfl, r1⟩
        · simp only [if_true]
          obtain ⟨k2, e2, r2⟩ := ih w1 k1 p1 r1
          rw [e2]
          exact ⟨k2, rfl, r2⟩
    · simp only [if_neg hm]; exact ⟨k, rfl, hr⟩

theorem invoke_paired (h : C.Alike R C') (S : Setup) (target n) (w : World κ) (k) (hr : R w.client k) :
    ∃ k', World.invoke S C' target (w.put k) n = ((World.invoke S C target w n).1.put k', (World.invoke S C target w n).2) ∧
      R (World.invoke S C target w n).1.client k' := by
  unfold World.invoke
  rw [show (w.put k).guard = w.guard from rfl]
  cases hp : w.guard.positions with
  | none =>
    obtain ⟨k', e, r⟩ := anchor_paired h w k ⟨n, []⟩ hr
    simp only
    rw [e]
    exact ⟨k', rfl, r⟩
  | some ps =>
    simp only
    obtain ⟨k', e, r⟩ := iterate_paired h S target ps.list.2 { w with guard := { w.guard with positions := some ps.list.1 } } k ⟨n, []⟩ hr
    have : ({ (w.put k) with guard := { w.guard with positions := some ps.list.1 } } : World κ') =
        World.put { w with guard := { w.guard with positions := some ps.list.1 } } k := rfl
    rw [this, e]
    exact ⟨k', rfl, r⟩

/-- `w'` is `w` with another client in a related state. -/
def World.Alike (R : κ → κ' → Prop) (w : World κ) (w' : World κ') : Prop := ∃ k, w' = w.put k ∧ R w.client k

theorem World.Alike.publish (h : C.Alike R C') {w : World κ} {w' : World κ'} (hw : w.Alike R w') (n) :
    (w.publish C n).Alike R (w'.publish C' n) := by
  obtain ⟨k, rfl, hr⟩ := hw
  exact publish_put h w k n hr

theorem env_resembles (h : C.Alike R C') (S : Setup) (tree target) :
    Sim (fun _ => True) (S.env C tree target) (S.env C' tree target) (World.Alike R) where
  descend := fun w w' p d hw => hw.publish h _
  ascend := fun w w' p d hw => hw.publish h _
  invoke := by
    rintro w _ n - ⟨k, rfl, hr⟩
    obtain ⟨k', e, r⟩ := invoke_paired h S target n w k hr
    refine ⟨?_, k', ?_, r⟩
    · show (World.invoke S C target w n).2 = (World.invoke S C' target (w.put k) n).2; rw [e]
    · show (World.invoke S C' target (w.put k) n).1 = _; rw [e]; rfl
  ask := by
    rintro w _ n re - ⟨k, rfl, hr⟩
    have := h.skip _ _ n re hr
    exact ⟨this.1, _, rfl, this.2⟩
  rescue := by
    rintro w _ n d ⟨k, rfl, hr⟩
    have := h.panics _ _ ⟨tree, S.nav.sub, .retired, n.path, n.isDir, d, w.metrics.persisted⟩ hr
    exact ⟨this.1, _, rfl, this.2⟩

/-! ### Options -/

/-- As a control is after any number of calls of On. -/
structure CtrlSound (c : NotificationCtrl Note κ) : Prop where
  muted : c.muted = false
  fresh : c.subscribed = false → c.invoke = (fun _ s => s) ∧ c.listeners = none
  many : ∀ ls, c.listeners = some ls → c.invoke = broadcast ls

theorem CtrlSound.new : CtrlSound (NotificationCtrl.new : NotificationCtrl Note κ) :=
  ⟨rfl, fun _ => ⟨rfl, rfl⟩, by intro ls h; simp [NotificationCtrl.new] at h⟩

theorem CtrlSound.on {c : NotificationCtrl Note κ} (h : CtrlSound c) (l : Listener Note κ) :
    CtrlSound (c.on l) ∧ ∀ n s, (c.on l).dispatch n s = l n (c.dispatch n s) := by
  unfold NotificationCtrl.on
  cases hs : c.subscribed with
  | false =>
    simp only [Bool.not_false, if_true]
    refine ⟨⟨h.muted, by simp, ?_⟩, ?_⟩
    · intro ls hl; simp only at hl; rw [(h.fresh hs).2] at hl; simp at hl
    · intro n s; simp [NotificationCtrl.dispatch, h.muted, (h.fresh hs).1]
  | true =>
    simp only [Bool.not_true, Bool.false_eq_true, if_false]
    refine ⟨⟨h.muted, by simp, ?_⟩, ?_⟩
    · intro ls hl; simp only [Option.some.injEq] at hl; subst hl; rfl
    · intro n s
      simp only [NotificationCtrl.dispatch, h.muted, Bool.false_eq_true, if_false]
      cases hl : c.listeners with
      | none => simp [broadcast]
      | some ls => rw [h.many ls hl]; simp [broadcast, List.foldl_append]

/-- Two controls that keep related states related. -/
structure CtrlAlike (R : κ → κ' → Prop) (c : NotificationCtrl Note κ) (c' : NotificationCtrl Note κ') : Prop where
  one : CtrlSound c
  two : CtrlSound c'
  both : ∀ n k k', R k k' → R (c.dispatch n k) (c'.dispatch n k')

/-- The options of another client. -/
def Options.put (o : Options κ) (e : Controls κ') (l : Nat) (a : String) (d : Defects κ') : Options κ' :=
  ⟨o.behaviours, o.sampling, o.filter, o.sink, o.hibernate, o.concurrency, e, o.hooks, l, a, d⟩

/-- The callbacks of two options answer alike. -/
structure DefectsAlike (R : κ → κ' → Prop) (d : Defects κ) (d' : Defects κ') : Prop where
  fault : FaultsAlike R d.fault d'.fault
  panics : PanicsAlike R d.panic d'.panic
  skip : SkipsAlike R d.skip d'.skip

/-- Options that make the same session, with callbacks that answer alike. -/
def Options.Alike (R : κ → κ' → Prop) (o : Options κ) (o' : Options κ') : Prop :=
  ∃ e l a d, o' = o.put e l a d ∧ (∀ v, CtrlAlike R (o.events.get v) (e.get v)) ∧ DefectsAlike R o.defects d

theorem client_alike {o : Options κ} {o' : Options κ'} (h : o.Alike R o') {f f'} (hf : HandlersAlike R f f') :
    (o.client f).Alike R (o'.client f') := by
  obtain ⟨e, l, a, d, rfl, he, hd⟩ := h
  exact ⟨hf, fun k k' n hr => (he n.ev).both n k k' hr, hd.skip, hd.panics⟩

theorem default_alike {P : Platform κ} {P' : Platform κ'} (h : P.Alike R P') : (defaultOptions P).Alike R (defaultOptions P') := by
  refine ⟨.new, 0, "~/agenor/admin/resume", defaultDefects P', ?_, ?_, ?_⟩
  · simp only [defaultOptions, Options.put, newHooks, h.cpus, h.engine, h.sortSlice]
  · intro v
    refine ⟨?_, ?_, ?_⟩
    · cases v <;> exact .new
    · cases v <;> exact .new
    · intro n k k' hr; cases v <;> exact hr
  · exact ⟨fun k k' p e hr => ⟨rfl, hr⟩, h.save, fun k k' n e hr => ⟨rfl, hr⟩⟩

theorem controls_get_set (c : Controls κ) (e v : LifeEv) (x) : (c.set e x).get v = if v = e then x else c.get v := by
  cases e <;> cases v <;> rfl

theorem apply_alike {P : Platform κ} {P' : Platform κ'} (hP : P.Alike R P') {o : Options κ} {o' : Options κ'} (h : o.Alike R o')
    {w : With κ} {w' : With κ'} (hw : w.Alike R w') : (w.apply P o).Alike R (w'.apply P' o') := by
  obtain ⟨e, l, a, d, rfl, he, hd⟩ := h
  unfold With.Alike at hw
  split at hw
  all_goals first
    | (subst hw; exact ⟨e, l, a, d, rfl, he, hd⟩)
    | (obtain ⟨rfl, rfl⟩ := hw; exact ⟨e, l, a, d, rfl, he, hd⟩)
    | exact ⟨e, _, a, d, rfl, he, hd⟩
    | exact ⟨e, l, _, d, rfl, he, hd⟩
    | exact ⟨e, l, a, { d with fault := _ }, rfl, he, hw, hd.panics, hd.skip⟩
    | exact ⟨e, l, a, { d with panic := _ }, rfl, he, hd.fault, hw, hd.skip⟩
    | exact ⟨e, l, a, { d with skip := _ }, rfl, he, hd.fault, hd.panics, hw⟩
    | exact hw.elim
    | (refine ⟨e, l, a, d, ?_, he, hd⟩; simp only [With.apply, Options.put, hP.cpus, hP.sortSlice]; done)
    | skip
  · rename_i v m v' m'
    obtain ⟨rfl, hm⟩ := hw
    refine ⟨e.set v ((e.get v).on m'), l, a, d, rfl, ?_, hd⟩
    intro z
    simp only [With.apply, controls_get_set]
    by_cases hz : z = v
    · subst hz
      have c := he z
      simp only [if_true]
      refine ⟨(c.one.on m).1, (c.two.on m').1, ?_⟩
      intro n k k' hr
      rw [(c.one.on m).2, (c.two.on m').2]
      exact hm _ _ _ (c.both _ _ _ hr)
    · simp only [if_neg hz]; exact he z

theorem applyAll_alike {P : Platform κ} {P' : Platform κ'} (hP : P.Alike R P') {s : List (With κ)} {s' : List (With κ')}
    (h : OptionsAlike R s s') : ∀ {o : Options κ} {o' : Options κ'}, o.Alike R o' →
    (applyAll (s.map (With.setting P)) o).2 = none ∧ (applyAll (s'.map (With.setting P')) o').2 = none ∧
    (applyAll (s.map (With.setting P)) o).1.Alike R (applyAll (s'.map (With.setting P')) o').1 := by
  induction h with
  | nil => intro o o' ho; exact ⟨rfl, rfl, ho⟩
  | both hw _ ih =>
    intro o o' ho
    exact ih (apply_alike hP ho hw)
  | @first v m s s' hm _ ih =>
    intro o o' ho
    refine ih ?_
    obtain ⟨e, l, a, d, rfl, he, hd⟩ := ho
    refine ⟨e, l, a, d, rfl, ?_, hd⟩
    intro z
    simp only [With.apply, controls_get_set]
    by_cases hz : z = v
    · subst hz
      have c := he z
      simp only [if_true]
      refine ⟨(c.one.on m).1, c.two, ?_⟩
      intro n k k' hr
      rw [(c.one.on m).2]
      exact hm _ _ _ (c.both _ _ _ hr)
    · simp only [if_neg hz]; exact he z
  | @second v m s s' hm _ ih =>
    intro o o' ho
    refine ih ?_
    obtain ⟨e, l, a, d, rfl, he, hd⟩ := ho
    refine ⟨e.set v ((e.get v).on m), l, a, d, rfl, ?_, hd⟩
    intro z
    simp only [controls_get_set]
    by_cases hz : z = v
    · subst hz
      have c := he z
      simp only [if_true]
      refine ⟨c.one, (c.two.on m).1, ?_⟩
      intro n k k' hr
      rw [(c.two.on m).2]
      exact hm _ _ _ (c.both _ _ _ hr)
    · simp only [if_neg hz]; exact he z

theorem afterwards_alike {o : Options κ} {o' : Options κ'} (h : o.Alike R o') : o.afterwards.Alike R o'.afterwards := by
  obtain ⟨e, l, a, d, rfl, he, hd⟩ := h
  exact ⟨e, l, a, d, rfl, he, hd⟩

theorem rebind_alike {o : Options κ} {o' : Options κ'} (h : o.Alike R o') : o.rebind.Alike R o'.rebind := by
  obtain ⟨e, l, a, d, rfl, he, hd⟩ := h
  refine ⟨.new, l, a, d, rfl, ?_, hd⟩
  intro v
  refine ⟨?_, ?_, ?_⟩
  · cases v <;> exact .new
  · cases v <;> exact .new
  · intro n k k' hr; cases v <;> exact hr

/-! ### Building -/

theorem createPrimary_put (E : Engine) (o : Options κ) (e : Controls κ') (l a d) :
    createPrimary E (o.put e l a d) =
      match createPrimary E o with
      | .ok (p, o1) => .ok (p, o1.put e l a d)
      | .err x => .err x
      | .panic => .panic := by
  unfold createPrimary
  simp only [show (o.put e l a d).filter = o.filter from rfl, show (o.put e l a d).sampling = o.sampling from rfl]
  cases o.filter.custom with
  | some c => simp only; cases c.validate <;> rfl
  | none =>
    simp only
    cases o.filter.nodeActive
    · simp only [Bool.false_eq_true, if_false]
      cases hs : o.filter.sample.isSome
      · rfl
      · simp only [if_true]
        rcases newSample E o.filter.sample o.sampling.files o.sampling.dirs with (_ | _) | _ | _ <;> rfl
    · simp only [if_true]
      cases o.filter.node with
      | none => rfl
      | some d => simp only; rcases newFilter E d o.filter with (_ | _) | _ | _ <;> rfl

theorem createPrimary_callbacks {E : Engine} {o o1 : Options κ} {p} (h : createPrimary E o = .ok (p, o1)) :
    o1.events = o.events ∧ o1.defects = o.defects := by
  unfold createPrimary at h
  split at h
  · split at h <;> simp at h
    rw [← h.2]; exact ⟨rfl, rfl⟩
  · split at h
    · split at h
      · simp at h
      · split at h <;> simp at h
        rw [← h.2]; exact ⟨rfl, rfl⟩
    · split at h
      · split at h <;> simp at h
        rw [← h.2]; exact ⟨rfl, rfl⟩
      · simp at h
        rw [← h.2]; exact ⟨rfl, rfl⟩

/-- The same was made of the options of both clients. -/
inductive Built.Alike (R : κ → κ' → Prop) : Built κ → Built κ' → Prop
  | crash : Built.Alike R .crash .crash
  | hades (e) : Built.Alike R (.hades e) (.hades e)
  | stillborn (e) {o o'} : o.Alike R o' → Built.Alike R (.stillborn e o) (.stillborn e o')
  | ready (S) {o o'} : o.Alike R o' → Built.Alike R (.ready S o) (.ready S o')

theorem buildRest_alike {P : Platform κ} {P' : Platform κ'} (hP : P.Alike R P') (sub res) {o : Options κ} {o' : Options κ'}
    (h : o.Alike R o') : (buildRest P sub res o).Alike R (buildRest P' sub res o') := by
  obtain ⟨e, l, a, d, rfl, he, hd⟩ := h
  unfold buildRest
  rw [← hP.engine]
  by_cases hs : sub = .undefined
  · rw [if_pos hs, if_pos hs]; exact .hades _
  rw [if_neg hs, if_neg hs]
  unfold registerFilter
  rw [createPrimary_put]
  cases hp : createPrimary P.engine o with
  | err x => exact .hades _
  | panic => exact .crash
  | ok q =>
    obtain ⟨p, o1⟩ := q
    have hk := createPrimary_callbacks hp
    rw [← hk.1] at he
    rw [← hk.2] at hd
    simp only
    rw [show createChild P.engine (o1.put e l a d) = createChild P.engine o1 from rfl]
    cases createChild P.engine o1 with
    | err x => exact .hades _
    | panic => exact .crash
    | ok c =>
      simp only
      rw [show initHibernation P.engine (o1.put e l a d) = initHibernation P.engine o1 from rfl]
      cases initHibernation P.engine o1 with
      | err x => exact .stillborn _ ⟨e, l, a, d, rfl, he, hd⟩
      | panic => exact .crash
      | ok y =>
        have hi : initSampling (o1.put e l a d) = (initSampling o1).put e l a d := by
          unfold initSampling
          rw [show (o1.put e l a d).sampling = o1.sampling from rfl]
          cases o1.sampling.active <;> rfl
        simp only
        rw [hi]
        have h2 : (initSampling o1).events = o1.events ∧ (initSampling o1).defects = o1.defects := by
          unfold initSampling; split <;> exact ⟨rfl, rfl⟩
        refine .ready _ ⟨e, l, a, d, rfl, ?_, ?_⟩
        · rw [h2.1]; exact he
        · rw [h2.2]; exact hd

/-! ### Running -/

theorem fault_alike {o : Options κ} {o' : Options κ'} (h : o.Alike R o') {w : World κ} {w' : World κ'} (hw : w.Alike R w') (p e) :
    (o.fault w p e).2 = (o'.fault w' p e).2 ∧ (o.fault w p e).1.Alike R (o'.fault w' p e).1 := by
  obtain ⟨ev, l, a, d, rfl, he, hd⟩ := h
  obtain ⟨k, rfl, hr⟩ := hw
  have := hd.fault _ _ p e hr
  exact ⟨this.1, _, rfl, this.2⟩

theorem statOf_alike {o : Options κ} {o' : Options κ'} (h : o.Alike R o') (c disk p) : statOf c o disk p = statOf c o' disk p := by
  obtain ⟨ev, l, a, d, rfl, he, hd⟩ := h
  rfl

theorem runTop_alike {o : Options κ} {o' : Options κ'} (h : o.Alike R o') (hC : C.Alike R C') (S : Setup) (disk : Disk) (tree target)
    {s : St (World κ)} {u : St (World κ')} (hs : StSim (World.Alike R) s u) :
    (runTop S o C disk tree target s).1 = (runTop S o' C' disk tree target u).1 ∧
    StSim (World.Alike R) (runTop S o C disk tree target s).2 (runTop S o' C' disk tree target u).2 := by
  unfold runTop
  rw [statOf_alike h]
  exact top_sim (env_resembles hC S tree target) S.nav o.fault o'.fault _ _ _ s u hs (fun e => fault_alike h hs.ext _ e)

theorem navigate_alike {b : Built κ} {b' : Built κ'} (hb : b.Alike R b') {f f'} (hf : HandlersAlike R f f') (disk tree) {x x'}
    (hx : R x x') : (b.navigate f disk tree x).Alike R (b'.navigate f' disk tree x') := by
  cases hb with
  | crash => exact ⟨rfl, rfl, rfl, rfl, rfl, hx⟩
  | hades e => exact ⟨rfl, rfl, rfl, rfl, rfl, hx⟩
  | stillborn e ho =>
    have hC := client_alike ho hf
    exact ⟨rfl, rfl, rfl, rfl, rfl, hC.listen _ _ _ (hC.listen _ _ _ hx)⟩
  | @ready S o o' ho =>
    have hC := client_alike ho hf
    have hw : (S.world x (fun _ => none)).Alike R (S.world x' (fun _ => none)) := ⟨x', rfl, hx⟩
    have hr := runTop_alike ho hC S disk tree [] (s := ⟨0, (S.world x (fun _ => none)).publish (o.client f) (.begin tree), []⟩)
      (u := ⟨0, (S.world x' (fun _ => none)).publish (o'.client f') (.begin tree), []⟩) ⟨rfl, rfl, hw.publish hC _⟩
    unfold Built.navigate
    simp only
    rw [← hr.1]
    have hw' := hr.2.ext
    generalize (runTop S o (o.client f) disk tree [] _).2.ext = v at hw'
    generalize (runTop S o' (o'.client f') disk tree [] _).2.ext = v' at hw'
    cases (runTop S o (o.client f) disk tree [] _).1 with
    | panic => obtain ⟨k, rfl, hk⟩ := hw'; exact ⟨rfl, rfl, rfl, rfl, rfl, hk⟩
    | done e =>
      obtain ⟨k, h1, hk⟩ := hw'.publish hC .ended
      simp only
      rw [h1]
      exact ⟨rfl, rfl, rfl, rfl, rfl, hk⟩

theorem seed_alike {o : Options κ} {o' : Options κ'} (h : o.Alike R o') (hC : C.Alike R C') (S : Setup) (stat tree target parent) :
    ∀ (ns : List String) (s : St (World κ)) (u : St (World κ')), StSim (World.Alike R) s u →
    (seed S.nav (S.env C tree target) o.fault stat parent ns s).1 = (seed S.nav (S.env C' tree target) o'.fault stat parent ns u).1 ∧
    StSim (World.Alike R) (seed S.nav (S.env C tree target) o.fault stat parent ns s).2
      (seed S.nav (S.env C' tree target) o'.fault stat parent ns u).2 := by
  intro ns
  induction ns with
  | nil => intro s u hs; exact ⟨rfl, hs⟩
  | cons n ns ih =>
    intro s u hs
    have ht := top_sim (env_resembles hC S tree target) S.nav o.fault o'.fault parent (parent ++ [n]) (stat (parent ++ [n])) s u hs
      (fun e => fault_alike h hs.ext _ e)
    simp only [seed]
    revert ht
    rcases top S.nav (S.env C tree target) o.fault parent (parent ++ [n]) (stat (parent ++ [n])) s with ⟨f, s1⟩
    rcases top S.nav (S.env C' tree target) o'.fault parent (parent ++ [n]) (stat (parent ++ [n])) u with ⟨f', u1⟩
    rintro ⟨h1, h2⟩
    simp only at h1 h2
    subst h1
    rcases f with (_ | e) | _
    · exact ih s1 u1 h2
    · exact ⟨rfl, h2⟩
    · exact ⟨rfl, h2⟩

theorem crown_alike {o : Options κ} {o' : Options κ'} (h : o.Alike R o') (hC : C.Alike R C') (S : Setup) (stat disk tree target) :
    ∀ (ps : List String) (inc : Bool) (s : St (World κ)) (u : St (World κ')), StSim (World.Alike R) s u →
    (crown S.nav (S.env C tree target) o.fault stat disk tree ps inc s).1 =
      (crown S.nav (S.env C' tree target) o'.fault stat disk tree ps inc u).1 ∧
    (crown S.nav (S.env C tree target) o.fault stat disk tree ps inc s).2.1 =
      (crown S.nav (S.env C' tree target) o'.fault stat disk tree ps inc u).2.1 ∧
    StSim (World.Alike R) (crown S.nav (S.env C tree target) o.fault stat disk tree ps inc s).2.2
      (crown S.nav (S.env C' tree target) o'.fault stat disk tree ps inc u).2.2 := by
  intro ps
  induction ps with
  | nil =>
    intro inc s u hs
    simp only [crown]
    by_cases ht : tree = []
    · simp only [if_pos ht]; exact ⟨trivial, trivial, hs⟩
    · simp only [if_neg ht]; exact ⟨trivial, trivial, hs⟩
  | cons c ps ih =>
    intro inc s u hs
    simp only [crown]
    by_cases ht : (c :: ps).reverse = tree
    · simp only [if_pos ht]; exact ⟨trivial, trivial, hs⟩
    · simp only [if_neg ht]
      cases following S.nav disk ps.reverse c inc with
      | error e => exact ⟨rfl, rfl, hs⟩
      | ok names =>
        simp only
        have hq := seed_alike h hC S stat tree target ps.reverse names s u hs
        revert hq
        rcases seed S.nav (S.env C tree target) o.fault stat ps.reverse names s with ⟨f, s1⟩
        rcases seed S.nav (S.env C' tree target) o'.fault stat ps.reverse names u with ⟨f', u1⟩
        rintro ⟨h1, h2⟩
        simp only at h1 h2
        subst h1
        rcases f with (_ | e) | _
        · exact ih false s1 u1 h2
        · exact ⟨rfl, rfl, h2⟩
        · exact ⟨rfl, rfl, h2⟩

theorem resumeRun_alike {o : Options κ} {o' : Options κ'} (h : o.Alike R o') (hC : C.Alike R C') (S : Setup) (disk : Disk) (st)
    (a : Active) {w : World κ} {w' : World κ'} (hw : w.Alike R w') :
    (resumeRun S o C disk st a w).1 = (resumeRun S o' C' disk st a w').1 ∧
    (resumeRun S o C disk st a w).2.1 = (resumeRun S o' C' disk st a w').2.1 ∧
    StSim (World.Alike R) (resumeRun S o C disk st a w).2.2 (resumeRun S o' C' disk st a w').2.2 := by
  have ht := runTop_alike h hC S disk a.tree a.currentPath (s := ⟨0, w, []⟩) (u := ⟨0, w', []⟩) ⟨rfl, rfl, hw⟩
  cases st with
  | spawn =>
    have hs : statOf S.nav o disk = statOf S.nav o' disk := by funext p; exact statOf_alike h _ _ _
    simp only [resumeRun, hs]
    exact crown_alike h hC S _ disk a.tree a.currentPath _ _ _ _ ⟨rfl, rfl, hw⟩
  | fastward => exact ⟨ht.1, rfl, ht.2⟩
  | undefined => exact ⟨ht.1, rfl, ht.2⟩

theorem resume_alike {b : Built κ} {b' : Built κ'} (hb : b.Alike R b') (st) {f f'} (hf : HandlersAlike R f f') (disk a) {x x'}
    (hx : R x x') : (b.resume st f disk a x).Alike R (b'.resume st f' disk a x') := by
  cases hb with
  | crash => exact ⟨rfl, rfl, rfl, rfl, rfl, hx⟩
  | hades e => exact ⟨rfl, rfl, rfl, rfl, rfl, hx⟩
  | stillborn e ho =>
    have hC := client_alike ho hf
    unfold Built.resume
    by_cases hs : st = .spawn
    · simp only [if_pos hs]
      exact ⟨rfl, rfl, rfl, rfl, rfl, hC.listen _ _ _ (hC.listen _ _ _ hx)⟩
    · simp only [if_neg hs]; exact ⟨rfl, rfl, rfl, rfl, rfl, hx⟩
  | @ready S o o' ho =>
    have hC := client_alike ho hf
    have hw : (S.world x (if st = .spawn then a.metrics else fun _ => none)).Alike R
        (S.world x' (if st = .spawn then a.metrics else fun _ => none)) := ⟨x', rfl, hx⟩
    have hr := resumeRun_alike ho hC S disk st a (hw.publish hC (.begin a.tree))
    unfold Built.resume
    simp only
    revert hr
    rcases resumeRun S o (o.client f) disk st a _ with ⟨f1, c1, s1⟩
    rcases resumeRun S o' (o'.client f') disk st a _ with ⟨f2, c2, s2⟩
    rintro ⟨h1, h2, h3⟩
    simp only at h1 h2 h3
    subst h1 h2
    have hw' := h3.ext
    cases f1 with
    | panic => obtain ⟨k, h1, hk⟩ := hw'; simp only; rw [h1]; exact ⟨rfl, rfl, rfl, rfl, rfl, hk⟩
    | done e =>
      obtain ⟨k, h1, hk⟩ := hw'.publish hC .ended
      simp only
      rw [h1]
      exact ⟨rfl, rfl, rfl, rfl, rfl, hk⟩

end Traverse
