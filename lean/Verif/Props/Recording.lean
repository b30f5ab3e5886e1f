import Verif.Props.Resume
import Verif.Props.Api
/-
C39 in whole sessions: what the reports say was seen by the client is what the client has seen. The tape and the hits of a report are
bookkeeping of the model; here a client that writes down everything it is told ends up with exactly these.
-/
namespace Traverse
variable {κ : Type}

/-- The event a notification is one of, in the client's terms. -/
def Note.kind : Note → LifeEv
  | .begin _ => .begin | .ended => .ended | .descend .. => .descend | .ascend .. => .ascend | .wake => .wake | .sleep => .sleep

theorem Note.ev_kind (n : Note) : n.ev = n.kind := by cases n <;> rfl

/-- A client that writes down every handler call, and every notification, as it gets them; `seen` and `got` read off what it has
written. The skip, panic and fault handlers write nothing. -/
structure Recorder (o : Options κ) (h : κ → Parcel → κ × Reply) (seen : κ → List Obs) (got : κ → List (Parcel × Reply)) : Prop where
  handler : ∀ k p, seen (h k p).1 = seen k ++ [.call p.node] ∧ got (h k p).1 = got k ++ [(p, (h k p).2)]
  listeners : ∀ k n, seen ((o.events.get n.kind).dispatch n k) = seen k ++ [.note n] ∧ got ((o.events.get n.kind).dispatch n k) = got k
  skip : ∀ k n e, seen (o.defects.skip k n e).1 = seen k ∧ got (o.defects.skip k n e).1 = got k
  panic : ∀ k a, seen (o.defects.panic k a).1 = seen k ∧ got (o.defects.panic k a).1 = got k
  fault : ∀ k p e, seen (o.defects.fault k p e).1 = seen k ∧ got (o.defects.fault k p e).1 = got k

/-- Tape and hits agree with what was written down since the client was in the state `x`. -/
def Truthful (seen : κ → List Obs) (got : κ → List (Parcel × Reply)) (x : κ) (w : World κ) : Prop :=
  seen w.client = seen x ++ w.tape ∧ got w.client = got x ++ w.hits.map (fun h => (h.parcel, h.reply))

section
variable {o : Options κ} {h : κ → Parcel → κ × Reply} {seen : κ → List Obs} {got : κ → List (Parcel × Reply)} {x : κ}

theorem Truthful.same {w v : World κ} (ht : Truthful seen got x w) (hc : v.client = w.client) (h1 : v.tape = w.tape) (h2 : v.hits = w.hits) :
    Truthful seen got x v := by unfold Truthful at *; rw [hc, h1, h2]; exact ht

theorem Truthful.publish (hr : Recorder o h seen got) {w : World κ} (ht : Truthful seen got x w) (n : Note) :
    Truthful seen got x (w.publish (o.client h) n) := by
  unfold World.publish
  split
  · exact ht
  · have := hr.listeners w.client n
    rw [← n.ev_kind] at this
    refine ⟨?_, ?_⟩
    · show seen ((o.events.get n.ev).dispatch n w.client) = _
      rw [this.1, ht.1, List.append_assoc]
    · show got ((o.events.get n.ev).dispatch n w.client) = _
      rw [this.2, ht.2]

theorem Truthful.link (hr : Recorder o h seen got) {S : Setup} {target r l} (hl : linkOf S (o.client h) target r = some l)
    {w : World κ} (ht : Truthful seen got x w) (p) : Truthful seen got x (l w p).1 := by
  have hchild : ∀ f {w : World κ} p, Truthful seen got x w → Truthful seen got x (childScheme S f w p).1 := by
    intro f w p h; unfold childScheme; split
    · exact h
    · exact h.same rfl rfl rfl
  have hprim : ∀ P {w : World κ} p, Truthful seen got x w → Truthful seen got x (primaryScheme P w p).1 := by
    intro P w p h; unfold primaryScheme; cases P <;> simp only <;> repeat' split
    all_goals first | exact h | exact h.same rfl rfl rfl
  cases r <;> simp only [linkOf, Option.some.injEq, reduceCtorEq] at hl <;> subst hl
  · have := hr.handler w.client p
    refine ⟨?_, ?_⟩
    · show seen (h w.client p).1 = _
      rw [this.1, ht.1, List.append_assoc]
      rfl
    · show got (h w.client p).1 = _
      rw [this.2, ht.2, List.append_assoc]
      simp [anchorLink, Options.client]
  · unfold filterLink
    by_cases hd : S.filter.dies p.node = true
    · rw [if_pos hd]; exact ht
    rw [if_neg hd]
    unfold schemeLink
    rcases S.filter.primary with _ | P <;> rcases S.filter.child with _ | f <;> simp only
    · exact ht
    · exact hchild f p ht
    · exact hprim P p ht
    · have h1 := hprim P p ht
      rcases hP : primaryScheme P w p with ⟨w1, p1, t⟩
      rw [hP] at h1
      have h2 := hchild f p1 h1
      rcases hC : childScheme S f w1 p1 with ⟨w2, p2, t2⟩
      rw [hC] at h2
      rcases t with ⟨_ | _, e⟩ | _ <;> simp only [hC]
      · exact h1
      · rcases t2 with ⟨_, e2⟩ | _ <;> exact h2
      · exact h1
  · unfold hiberLink
    by_cases hd : S.hiber.dies w.hib p.node = true
    · rw [if_pos hd]; exact ht
    rw [if_neg hd]
    unfold hiberNext
    cases w.hib <;> simp only
    · exact ht
    · split
      · exact (ht.publish hr .wake).same rfl rfl rfl
      · exact ht
    · split
      · exact (ht.publish hr .sleep).same rfl rfl rfl
      · exact ht
    · exact ht
  · exact ht
  · unfold nannyLink; split
    · exact ht
    · exact ht.same rfl rfl rfl
  · unfold fastwardLink; split
    · exact ht
    · exact ht
    · exact ht.same rfl rfl rfl

theorem Truthful.iterate (hr : Recorder o h seen got) {S : Setup} {target} (rs : List Role) : ∀ {w : World κ} (p),
    Truthful seen got x w → Truthful seen got x (iterate (World.link S (o.client h) target) rs w p).1 := by
  induction rs with
  | nil => intro w p ht; exact ht
  | cons r rs ih =>
    intro w p ht
    simp only [Traverse.iterate]
    rcases hk : World.link S (o.client h) target w r with _ | l
    · exact ht
    · have hof : linkOf S (o.client h) target r = some l := by
        unfold World.link at hk; split at hk
        · exact hk
        · cases hk
      have h1 := ht.link hr hof p
      simp only
      rcases hlu : l w p with ⟨w1, p1, t⟩
      rw [hlu] at h1
      simp only
      split
      · exact ih p1 h1
      · exact h1

theorem Truthful.invoke (hr : Recorder o h seen got) {S : Setup} {target} {w : World κ} (ht : Truthful seen got x w) (n : Node) :
    Truthful seen got x (World.invoke S (o.client h) target w n).1 := by
  simp only [World.invoke]
  cases hp : w.guard.positions with
  | none => exact (ht.link hr (S := S) (target := target) (r := .anchor) rfl ⟨n, []⟩).same rfl rfl rfl
  | some ps =>
    have h0 : Truthful seen got x { w with guard := { w.guard with positions := some ps.list.1 } } := ht.same rfl rfl rfl
    exact (Truthful.iterate hr ps.list.2 ⟨n, []⟩ h0).same rfl rfl rfl

theorem truthful_preserved (hr : Recorder o h seen got) (S : Setup) (tree target : Path) :
    Preserved (S.env (o.client h) tree target) (fun s => Truthful seen got x s.ext) where
  descend s p d ht := Truthful.publish hr ht _
  ascend s p d ht := Truthful.publish hr ht _
  invoke s n ht := Truthful.invoke hr ht n
  ask s n re ht := by
    have := hr.skip s.ext.client n re
    exact ⟨by show seen (o.defects.skip s.ext.client n re).1 = _; rw [this.1]; exact ht.1,
      by show got (o.defects.skip s.ext.client n re).1 = _; rw [this.2]; exact ht.2⟩
  rescue s n ht := by
    have := hr.panic s.ext.client
      { tree := tree, sub := S.nav.sub, hibernation := .retired, currentPath := n.path, isDir := n.isDir, depth := periDepth s.depth,
        metrics := s.ext.metrics.persisted }
    exact ⟨by show seen (o.defects.panic s.ext.client _).1 = _; rw [this.1]; exact ht.1,
      by show got (o.defects.panic s.ext.client _).1 = _; rw [this.2]; exact ht.2⟩

theorem truthful_fault (hr : Recorder o h seen got) : FaultOK o.fault (fun s : St (World κ) => Truthful seen got x s.ext) := by
  intro s p e ht
  have := hr.fault s.ext.client p e
  exact ⟨by show seen (o.defects.fault s.ext.client p e).1 = _; rw [this.1]; exact ht.1,
    by show got (o.defects.fault s.ext.client p e).1 = _; rw [this.2]; exact ht.2⟩

theorem Recorder.stillborn (hr : Recorder o h seen got) (tree : Path) :
    let C := o.client h
    seen (C.listen (C.listen x (.begin tree)) .ended) = seen x ++ [.note (.begin tree), .note .ended] ∧
    got (C.listen (C.listen x (.begin tree)) .ended) = got x := by
  have h1 := hr.listeners x (.begin tree)
  have h2 := hr.listeners ((o.client h).listen x (.begin tree)) .ended
  refine ⟨h2.1.trans ?_, h2.2.trans h1.2⟩
  show seen ((o.events.get (Note.begin tree).kind).dispatch (.begin tree) x) ++ _ = _
  rw [h1.1]
  simp

/-- What is built keeps the events and the defect handlers of the options. -/
theorem rest_keeps {P : Platform κ} {sub res} {o : Options κ} :
    (∀ S o2, buildRest P sub res o = .ready S o2 → o2.events = o.events ∧ o2.defects = o.defects) ∧
    (∀ e o2, buildRest P sub res o = .stillborn e o2 → o2.events = o.events ∧ o2.defects = o.defects) := by
  have hprim : ∀ p o1, createPrimary P.engine o = .ok (p, o1) → o1.events = o.events ∧ o1.defects = o.defects := by
    intro p o1 hc
    unfold createPrimary at hc
    repeat' split at hc
    all_goals first
      | (cases hc; done)
      | (simp only [Made.ok.injEq, Prod.mk.injEq] at hc; obtain ⟨-, rfl⟩ := hc; exact ⟨rfl, rfl⟩)
  have hreg : ∀ f o1, registerFilter P.engine o = .ok (f, o1) → o1.events = o.events ∧ o1.defects = o.defects := by
    intro f o1 hc
    unfold registerFilter at hc
    split at hc
    · cases hc
    · cases hc
    · rename_i p o1' hp
      split at hc
      · cases hc
      · cases hc
      · simp only [Made.ok.injEq, Prod.mk.injEq] at hc
        obtain ⟨-, rfl⟩ := hc
        exact hprim _ _ hp
  have hsam : ∀ o1 : Options κ, (initSampling o1).events = o1.events ∧ (initSampling o1).defects = o1.defects := by
    intro o1; unfold initSampling; split <;> exact ⟨rfl, rfl⟩
  constructor
  · intro S o2 hb
    unfold buildRest at hb
    split at hb
    · cases hb
    split at hb
    · cases hb
    · cases hb
    · rename_i f o1 hf
      split at hb
      · cases hb
      · cases hb
      · simp only [Built.ready.injEq] at hb
        obtain ⟨-, rfl⟩ := hb
        exact ⟨(hsam o1).1.trans (hreg _ _ hf).1, (hsam o1).2.trans (hreg _ _ hf).2⟩
  · intro e o2 hb
    unfold buildRest at hb
    split at hb
    · cases hb
    split at hb
    · cases hb
    · cases hb
    · rename_i f o1 hf
      split at hb
      · simp only [Built.stillborn.injEq] at hb
        obtain ⟨-, rfl⟩ := hb
        exact hreg _ _ hf
      · cases hb
      · cases hb

theorem Recorder.keeps (hr : Recorder o h seen got) {o2 : Options κ} (he : o2.events = o.events) (hd : o2.defects = o.defects) :
    Recorder o2 h seen got := by
  obtain ⟨h1, h2, h3, h4, h5⟩ := hr
  exact ⟨h1, by rw [he]; exact h2, by rw [hd]; exact h3, by rw [hd]; exact h4, by rw [hd]; exact h5⟩

end

/-- **C39, primary sessions**: a client whose handler and listeners write down every call ends up with exactly the report's tape, in its
order, and with exactly the handler calls of the report; whatever the settings, and however the session ends. -/
theorem C39_session (P : Platform κ) (u : Using κ) (settings : List (Option (Setting κ))) (disk : Disk) (x : κ) (hn : u.o = none)
    (seen : κ → List Obs) (got : κ → List (Parcel × Reply)) (hr : ∀ h, u.handler = some h → Recorder (getOptions P settings).1 h seen got) :
    let rep := walkPrime P (.using u) settings disk x
    seen rep.client = seen x ++ rep.tape ∧ got rep.client = got x ++ rep.hits.map (fun h => (h.parcel, h.reply)) := by
  intro rep
  simp only [rep, walkPrime, buildPrimary, primaryPlatform, hn]
  cases hv : u.validate with
  | some e => simp [Built.navigate]
  | none =>
    have hh : ∃ h, u.handler = some h := by
      unfold Using.validate at hv
      split at hv
      · cases hv
      split at hv
      · cases hv
      split at hv
      · cases hv
      · rename_i hne
        cases hu : u.handler with
        | none => simp [hu] at hne
        | some h => exact ⟨h, rfl⟩
    obtain ⟨h, hu⟩ := hh
    have hr := hr h hu
    rw [hu]
    rcases ho : getOptions P settings with ⟨o, _ | e⟩
    · rw [ho] at hr
      simp only [Option.map_none, Option.getD_some]
      have hr' : Recorder o.afterwards h seen got := hr.keeps rfl rfl
      cases hb : buildRest P u.sub none o.afterwards with
      | crash => simp [Built.navigate]
      | hades e => simp [Built.navigate]
      | stillborn e o2 =>
        obtain ⟨k1, k2⟩ := rest_keeps.2 _ _ hb
        have := (hr'.keeps k1 k2).stillborn (x := x) u.tree
        simpa [Built.navigate] using this
      | ready S o2 =>
        obtain ⟨k1, k2⟩ := rest_keeps.1 _ _ hb
        have hr2 := hr'.keeps k1 k2
        have h0 : Truthful seen got x (S.world x (fun _ => none)) := by simp [Truthful, Setup.world]
        have h1 := h0.publish hr2 (.begin u.tree)
        have h2 := top_inv (truthful_preserved hr2 S u.tree []) S.nav o2.fault u.tree.dropLast u.tree (statOf S.nav o2 disk u.tree)
          ⟨0, (S.world x (fun _ => none)).publish (o2.client h) (.begin u.tree), []⟩ h1 (fun p e => truthful_fault hr2 _ p e h1)
        simp only [Built.navigate, runTop]
        rcases ht : top S.nav (S.env (o2.client h) u.tree []) o2.fault u.tree.dropLast u.tree (statOf S.nav o2 disk u.tree)
          ⟨0, (S.world x (fun _ => none)).publish (o2.client h) (.begin u.tree), []⟩ with ⟨f, s⟩
        rw [ht] at h2
        cases f with
        | panic => exact h2
        | done e => exact Truthful.publish hr2 h2 .ended
    · simp [Built.navigate]

/-- **C39, resumed sessions**: the same for both strategies. -/
theorem C39_resumed_session (P : Platform κ) (r : Relic κ) (settings : List (Option (Setting κ))) (files : String → Except Err Json)
    (disk : Disk) (x : κ) (seen : κ → List Obs) (got : κ → List (Parcel × Reply)) (h : κ → Parcel → κ × Reply)
    (hh : r.handler = some h)
    (hr : ∀ o s, unmarshal P (files r.from) = .ok (o, s) → Recorder (bindOptions o settings).1 h seen got) :
    let rep := walkResume P (.relic r) settings files disk x
    seen rep.client = seen x ++ rep.tape ∧ got rep.client = got x ++ rep.hits.map (fun h => (h.parcel, h.reply)) := by
  intro rep
  simp only [rep, walkResume, hh, Option.getD_some]
  cases hp : resumePlatform P r settings (files r.from) with
  | error e' => simp
  | ok p =>
    obtain ⟨o', a⟩ := p
    obtain ⟨o, s, h1, rfl, h2, _⟩ := platform_ok hp
    have hr := hr o s h1
    rw [h2] at hr
    have hr' : Recorder o'.afterwards h seen got := hr.keeps rfl rfl
    simp only
    cases hb : buildRest P s.active.sub (some r.strategy) o'.afterwards with
    | crash => simp [Built.resume]
    | hades e' => simp [Built.resume]
    | stillborn e' o2 =>
      obtain ⟨k1, k2⟩ := rest_keeps.2 _ _ hb
      have := (hr'.keeps k1 k2).stillborn (x := x) s.active.tree
      simp only [Built.resume]
      split
      · simpa using this
      · simp
    | ready S o2 =>
      obtain ⟨k1, k2⟩ := rest_keeps.1 _ _ hb
      have hr2 := hr'.keeps k1 k2
      generalize hm : (if r.strategy = .spawn then s.active.metrics else fun _ => none) = m
      have h0 : Truthful seen got x (S.world x m) := by simp [Truthful, Setup.world]
      have h1 := h0.publish hr2 (.begin s.active.tree)
      have h2 := resumeRun_inv (truthful_preserved hr2 S s.active.tree s.active.currentPath) (truthful_fault hr2) disk r.strategy
        ((S.world x m).publish (o2.client h) (.begin s.active.tree)) (fun _ => h1)
      simp only [Built.resume, hm]
      rcases ht : resumeRun S o2 (o2.client h) disk r.strategy s.active
        ((S.world x m).publish (o2.client h) (.begin s.active.tree)) with ⟨_ | _, c, s'⟩
      · rw [ht] at h2
        exact Truthful.publish hr2 h2 .ended
      · rw [ht] at h2
        exact h2

/-- A client that writes everything down. -/
structure Diary where
  seen : List Obs := []
  got : List (Parcel × Reply) := []

/-- The listener that writes a notification down. -/
def Diary.note : Listener Note Diary := fun n d => { d with seen := d.seen ++ [.note n] }
/-- The handler that writes a call down and answers by the path. -/
def Diary.call (g : Path → Reply) (d : Diary) (p : Parcel) : Diary × Reply :=
  ({ seen := d.seen ++ [.call p.node], got := d.got ++ [(p, g p.node.path)] }, g p.node.path)

/-- A platform for it. -/
def diaryPlatform : Platform Diary where
  cpus := 4
  engine := toyEngine
  sortSlice := insertSort
  save k a := (k, .saved ("/" ++ a.currentPath.getLast?.getD ""))

/-- Listeners for all six events. -/
def diarySettings : List (Option (Setting Diary)) :=
  settingsOf diaryPlatform ([LifeEv.begin, .ended, .descend, .ascend, .wake, .sleep].map fun e => some (.on e Diary.note))

theorem diary_listeners (o : Options Diary) (h : o.events = .new) (k : Diary) (n : Note) :
    let l := (((applyAll diarySettings o).1.events.get n.kind).dispatch n k)
    l = Diary.note n k := by
  intro l
  have : (applyAll diarySettings o).1.events =
      ([LifeEv.begin, .ended, .descend, .ascend, .wake, .sleep].foldl (fun (c : Controls Diary) e => c.set e ((c.get e).on Diary.note)) o.events) := rfl
  simp only [l, this, h]
  cases n <;> rfl

theorem on_defects (evs : List LifeEv) : ∀ o : Options Diary,
    (applyAll (settingsOf diaryPlatform (evs.map fun e => some (.on e Diary.note))) o).1.defects = o.defects := by
  induction evs with
  | nil => intro o; rfl
  | cons e evs ih =>
    intro o
    exact ih ((With.on e Diary.note).apply diaryPlatform o)

theorem diary_defects (o : Options Diary) : (applyAll diarySettings o).1.defects = o.defects := on_defects _ o

theorem diary_recorder (g : Path → Reply) (o : Options Diary) (h : o.events = .new)
    (hd : o.defects = defaultDefects diaryPlatform) : Recorder (applyAll diarySettings o).1 (Diary.call g) Diary.seen Diary.got := by
  refine ⟨fun k p => ⟨rfl, rfl⟩, fun k n => ?_, fun k n e => ?_, fun k a => ?_, fun k p e => ?_⟩
  · rw [diary_listeners o h]; exact ⟨rfl, rfl⟩
  all_goals rw [diary_defects, hd]; exact ⟨rfl, rfl⟩

/-- Not vacuous: the client that writes everything down, given the default options and six listeners, is a recorder, in a primary
session in which the handler panics on a file, and in the spawn and fastward resumes of a saved state. -/
example (g : Path → Reply) :
    (∀ disk, let u : Using Diary := { tree := ["r"], sub := .universal, handler := some (Diary.call g) }
      let rep := walkPrime diaryPlatform (.using u) diarySettings disk {}
      rep.client.seen = rep.tape ∧ rep.client.got = rep.hits.map (fun h => (h.parcel, h.reply))) ∧
    (∀ st disk doc, let r : Relic Diary := { handler := some (Diary.call g), «from» := "saved.json", strategy := st }
      let rep := walkResume diaryPlatform (.relic r) diarySettings (fun _ => .ok doc) disk {}
      rep.client.seen = rep.tape ∧ rep.client.got = rep.hits.map (fun h => (h.parcel, h.reply))) := by
  refine ⟨fun disk => ?_, fun st disk doc => ?_⟩
  · have := C39_session diaryPlatform { tree := ["r"], sub := .universal, handler := some (Diary.call g) } diarySettings disk {} rfl
      Diary.seen Diary.got (fun h hh => by cases hh; exact diary_recorder g _ rfl rfl)
    simpa using this
  · have := C39_resumed_session diaryPlatform { handler := some (Diary.call g), «from» := "saved.json", strategy := st } diarySettings
      (fun _ => .ok doc) disk {} Diary.seen Diary.got (Diary.call g) rfl (fun o s h => by
        refine diary_recorder g _ rfl ?_
        unfold unmarshal at h
        simp only at h
        split at h
        · split at h
          · cases h
          · cases h; rfl
        · cases h)
    simpa using this

end Traverse
