import Verif.Proofs.Alike
import Verif.Props.Api
import Verif.Props.Resumed
/-
C73: a session is the same for clients that answer alike; observers do not disturb it. C47: neither do the handlers in the workers.
-/
namespace Traverse
variable {κ κ' ω : Type}

theorem primary_alike {R : κ → κ' → Prop} {P : Platform κ} {P' : Platform κ'} (hP : P.Alike R P') {u : Using κ} {u' : Using κ'}
    (ht : u.tree = u'.tree) (hsub : u.sub = u'.sub) (hh : u.handler.isSome = u'.handler.isSome) (ho : u.o = none ∧ u'.o = none)
    {s : List (With κ)} {s' : List (With κ')} (hs : OptionsAlike R s s') :
    (buildPrimary P (.using u) (s.map (With.setting P))).Alike R (buildPrimary P' (.using u') (s'.map (With.setting P'))) := by
  have ha := applyAll_alike hP hs (default_alike hP)
  have hv : u.validate = u'.validate := by
    unfold Using.validate
    rw [← ht, ← hsub]
    cases h1 : u.handler <;> cases h2 : u'.handler <;> simp_all
  unfold buildPrimary primaryPlatform
  simp only [ho.1, ho.2, getOptions, ha.1, ha.2.1, ← hv, ← hsub, Option.map_none]
  cases u.validate with
  | some e => exact .hades _
  | none => exact buildRest_alike hP _ _ (afterwards_alike ha.2.2)

/-- **C73** Two clients with the same options, that answer alike as long as their states are related, get the same session: the same
handler calls on the same nodes with the same children, the same notifications in the same order, the same error, metrics and
completion, and their states are related at the end. Filters, hibernation, sampling, hooks and sessions that cannot be built included. -/
theorem C73_session (R : κ → κ' → Prop) (P : Platform κ) (P' : Platform κ') (hP : P.Alike R P') (u : Using κ) (u' : Using κ')
    (hu : u.Alike R u') (s : List (With κ)) (s' : List (With κ')) (hs : OptionsAlike R s s') (disk : Disk) (x : κ) (x' : κ') (hx : R x x') :
    (walkPrime P (.using u) (s.map (With.setting P)) disk x).Alike R (walkPrime P' (.using u') (s'.map (With.setting P')) disk x') := by
  obtain ⟨h, h', h1, h2, hh⟩ := hu.handler
  have hb := primary_alike hP hu.tree hu.sub (by rw [h1, h2]; rfl) hu.o hs
  simp only [walkPrime, h1, h2, Option.getD_some, ← hu.tree]
  exact navigate_alike hb hh disk u.tree hx

theorem platform_alike {R : κ → κ' → Prop} {P : Platform κ} {P' : Platform κ'} (hP : P.Alike R P') {r : Relic κ} {r' : Relic κ'}
    (hf : r.forest = r'.forest) {s : List (With κ)} {s' : List (With κ')} (hs : OptionsAlike R s s') (file) :
    (∃ e, resumePlatform P r (s.map (With.setting P)) file = .error e ∧ resumePlatform P' r' (s'.map (With.setting P')) file = .error e) ∨
    ∃ o o' a, resumePlatform P r (s.map (With.setting P)) file = .ok (o, a) ∧
      resumePlatform P' r' (s'.map (With.setting P')) file = .ok (o', a) ∧ o.Alike R o' := by
  unfold resumePlatform unmarshal
  cases file with
  | error e => exact .inl ⟨_, rfl, rfl⟩
  | ok doc =>
    simp only
    cases decodeSaved (doc.get "Active") with
    | none => exact .inl ⟨_, rfl, rfl⟩
    | some sv =>
      cases decodeOptions (doc.get "JO") with
      | none => exact .inl ⟨_, rfl, rfl⟩
      | some j =>
        simp only
        have hj : (fromJSON P j).Alike R (fromJSON P' j) := by
          obtain ⟨e, l, a, d, h1, h2, h3⟩ := default_alike hP
          refine ⟨(fromJSON P' j).events, (fromJSON P' j).log, (fromJSON P' j).adminPath, (fromJSON P' j).defects, ?_, ?_, ?_⟩
          · have : (defaultOptions P').hooks = (defaultOptions P).hooks := by rw [h1]; rfl
            simp only [fromJSON, Options.put, this]
            simp only [defaultOptions]
          · intro v
            have he : (fromJSON P' j).events = e := by show (defaultOptions P').events = e; rw [h1]; rfl
            rw [he]; exact h2 v
          · have he : (fromJSON P' j).defects = d := by show (defaultOptions P').defects = d; rw [h1]; rfl
            rw [he]; exact h3
        have hc : comparisonEquals (some (fromJSON P j)) (some j) = comparisonEquals (some (fromJSON P' j)) (some j) := by
          obtain ⟨e, l, a, d, h1, h2, h3⟩ := hj
          rw [h1]; rfl
        rw [← hc]
        cases comparisonEquals (some (fromJSON P j)) (some j) with
        | some f => exact .inl ⟨_, rfl, rfl⟩
        | none =>
          simp only [bindOptions]
          have ha := applyAll_alike hP hs (rebind_alike hj)
          revert ha
          rcases applyAll (s.map (With.setting P)) (fromJSON P j).rebind with ⟨o1, e1⟩
          rcases applyAll (s'.map (With.setting P')) (fromJSON P' j).rebind with ⟨o2, e2⟩
          rintro ⟨h1, h2, h3⟩
          simp only at h1 h2 h3
          subst h1 h2
          simp only [← hf]
          have fin : ∀ t rr : Bool,
              (∃ e, (if t ≠ sv.traverseRelative then Except.error BuildErr.traverseFsMismatch
                  else if rr ≠ sv.resumeRelative then .error .resumeFsMismatch else .ok (o1, sv.active)) = .error e ∧
                (if t ≠ sv.traverseRelative then Except.error BuildErr.traverseFsMismatch
                  else if rr ≠ sv.resumeRelative then .error .resumeFsMismatch else .ok (o2, sv.active)) = .error e) ∨
              ∃ o o' a, (if t ≠ sv.traverseRelative then Except.error BuildErr.traverseFsMismatch
                  else if rr ≠ sv.resumeRelative then .error .resumeFsMismatch else .ok (o1, sv.active)) = .ok (o, a) ∧
                (if t ≠ sv.traverseRelative then Except.error BuildErr.traverseFsMismatch
                  else if rr ≠ sv.resumeRelative then .error .resumeFsMismatch else .ok (o2, sv.active)) = .ok (o', a) ∧ o.Alike R o' := by
            intro t rr
            by_cases c1 : t ≠ sv.traverseRelative
            · rw [if_pos c1, if_pos c1]; exact .inl ⟨_, rfl, rfl⟩
            · rw [if_neg c1, if_neg c1]
              by_cases c2 : rr ≠ sv.resumeRelative
              · rw [if_pos c2, if_pos c2]; exact .inl ⟨_, rfl, rfl⟩
              · rw [if_neg c2, if_neg c2]; exact .inr ⟨_, _, _, rfl, rfl, h3⟩
          cases r.forest with
          | none => exact fin false false
          | some f =>
            simp only
            cases f sv.active.tree with
            | none => exact .inl ⟨_, rfl, rfl⟩
            | some q => exact fin q.1 q.2

/-- **C73** The same for resumed sessions, by either strategy, whatever the file they resume from. -/
theorem C73_resumed (R : κ → κ' → Prop) (P : Platform κ) (P' : Platform κ') (hP : P.Alike R P') (r : Relic κ) (r' : Relic κ')
    (hr : r.Alike R r') (s : List (With κ)) (s' : List (With κ')) (hs : OptionsAlike R s s') (files : String → Except Err Json) (disk : Disk)
    (x : κ) (x' : κ') (hx : R x x') :
    (walkResume P (.relic r) (s.map (With.setting P)) files disk x).Alike R
      (walkResume P' (.relic r') (s'.map (With.setting P')) files disk x') := by
  obtain ⟨h, h', h1, h2, hh⟩ := hr.handler
  simp only [walkResume, h1, h2, Option.getD_some, ← hr.from, ← hr.strategy]
  rcases platform_alike hP hr.forest hs (files r.from) with ⟨e, e1, e2⟩ | ⟨o, o', a, e1, e2, ho⟩
  · rw [e1, e2]; exact ⟨rfl, rfl, rfl, rfl, rfl, hx⟩
  · rw [e1, e2]
    exact resume_alike (buildRest_alike hP _ _ (afterwards_alike ho)) _ hh disk a hx

theorem enqueue_alike (R : κ → κ' → Prop) : HandlersAlike R enqueue enqueue := fun _ _ _ hr => ⟨rfl, hr⟩

theorem size_alike {R : κ → κ' → Prop} {b : Built κ} {b' : Built κ'} (h : b.Alike R b') : b.size = b'.size := by
  cases h with
  | crash => rfl
  | hades e => rfl
  | stillborn e h => rfl
  | ready S h => obtain ⟨e, l, a, d, rfl, -, -⟩ := h; rfl

theorem launch_alike {R : κ → κ' → Prop} {b : Built κ} {b' : Built κ'} (hb : b.Alike R b') (h h' pool disk tree) {x x'} (hx : R x x') :
    (b.launch h pool disk tree x).report.Alike R (b'.launch h' pool disk tree x').report ∧
    (b.launch h pool disk tree x).size = (b'.launch h' pool disk tree x').size := by
  refine ⟨?_, size_alike hb⟩
  have hn := navigate_alike hb (enqueue_alike R) disk tree hx
  cases pool with
  | none => cases hb <;> exact hn
  | some e =>
    cases hb with
    | crash => exact hn
    | hades e => exact hn
    | stillborn e ho => exact hn
    | @ready S o o' ho =>
      have hC := client_alike ho (enqueue_alike R)
      have hw : (S.world x (fun _ => none)).Alike R (S.world x' (fun _ => none)) := ⟨x', rfl, hx⟩
      obtain ⟨k, h1, hk⟩ := (hw.publish hC (.begin tree)).publish hC .ended
      simp only [Built.launch]
      rw [h1]
      exact ⟨rfl, rfl, rfl, rfl, rfl, hk⟩

theorem relaunch_alike {R : κ → κ' → Prop} {b : Built κ} {b' : Built κ'} (hb : b.Alike R b') (st h h' pool disk a) {x x'} (hx : R x x') :
    (b.relaunch st h pool disk a x).report.Alike R (b'.relaunch st h' pool disk a x').report ∧
    (b.relaunch st h pool disk a x).size = (b'.relaunch st h' pool disk a x').size := by
  refine ⟨?_, size_alike hb⟩
  have hn := resume_alike hb st (enqueue_alike R) disk a hx
  cases pool with
  | none => cases hb <;> exact hn
  | some e =>
    cases hb with
    | crash => exact hn
    | hades e => exact hn
    | stillborn e ho => exact hn
    | @ready S o o' ho =>
      have hC := client_alike ho (enqueue_alike R)
      have hw : (S.world x (fun _ => none)).Alike R (S.world x' (fun _ => none)) := ⟨x', rfl, hx⟩
      obtain ⟨k, h1, hk⟩ := (hw.publish hC (.begin a.tree)).publish hC .ended
      simp only [Built.relaunch]
      rw [h1]
      exact ⟨rfl, rfl, rfl, rfl, rfl, hk⟩

/-! ### Observers -/

/-- The two states of a client with and without observers. -/
def Besides (k : κ) (k' : κ × ω) : Prop := k'.1 = k

theorem beside_alike (w : With κ) : w.Alike Besides (w.beside : With (κ × ω)) := by
  cases w <;> simp only [With.beside, With.Alike, and_self]
  case on e l => exact ⟨trivial, by rintro n k k' rfl; rfl⟩
  case faultHandler f => rintro k k' p e rfl; exact ⟨rfl, rfl⟩
  case panicHandler f => rintro k k' a rfl; exact ⟨rfl, rfl⟩
  case skipHandler f => rintro k k' n e rfl; exact ⟨rfl, rfl⟩

theorem watched_alike {s : List (With κ)} {s' : List (With (κ × ω))} (h : Attended s s') : OptionsAlike Besides s s' := by
  induction h with
  | nil => exact .nil
  | own w _ ih => exact .both (beside_alike w) ih
  | watch e f _ ih => exact .second e (fun n k k' hr => hr) ih

/-- **C73** Observers do not disturb: listeners of their own state, added to any event, anywhere among the options, however many,
whatever they do, change nothing of a session: not the handler calls, the notifications, the error, the metrics, nor the state of
the client. -/
theorem C73_observers (P : Platform κ) (u : Using κ) (h : κ → Parcel → κ × Reply) (hh : u.handler = some h) (ho : u.o = none)
    (s : List (With κ)) (s' : List (With (κ × ω))) (hs : Attended s s') (disk : Disk) (x : κ) (y : ω) :
    let plain := walkPrime P (.using u) (s.map (With.setting P)) disk x
    let watched := walkPrime P.beside (.using { tree := u.tree, sub := u.sub, handler := some (besides h) })
      (s'.map (With.setting P.beside)) disk (x, y)
    watched.verdict = plain.verdict ∧ watched.tape = plain.tape ∧ watched.hits = plain.hits ∧ watched.metrics = plain.metrics ∧
    watched.complete = plain.complete ∧ watched.client.1 = plain.client := by
  have := C73_session Besides P (P.beside (ω := ω)) ⟨rfl, rfl, rfl, by rintro k k' a rfl; exact ⟨rfl, rfl⟩⟩ u
    { tree := u.tree, sub := u.sub, handler := some (besides h) }
    ⟨rfl, rfl, ⟨h, besides h, hh, rfl, by rintro k k' p rfl; exact ⟨rfl, rfl⟩⟩, ho, rfl⟩ s s' (watched_alike hs) disk x (x, y) rfl
  exact ⟨this.verdict.symm, this.tape.symm, this.hits.symm, this.metrics.symm, this.complete.symm, this.client⟩

/-- **C73** Nor of a resumed one. -/
theorem C73_observers_resumed (P : Platform κ) (r : Relic κ) (h : κ → Parcel → κ × Reply) (hh : r.handler = some h)
    (s : List (With κ)) (s' : List (With (κ × ω))) (hs : Attended s s') (files : String → Except Err Json) (disk : Disk) (x : κ) (y : ω) :
    let plain := walkResume P (.relic r) (s.map (With.setting P)) files disk x
    let watched := walkResume P.beside (.relic { «from» := r.from, strategy := r.strategy, forest := r.forest, handler := some (besides h) })
      (s'.map (With.setting P.beside)) files disk (x, y)
    watched.verdict = plain.verdict ∧ watched.tape = plain.tape ∧ watched.hits = plain.hits ∧ watched.metrics = plain.metrics ∧
    watched.complete = plain.complete ∧ watched.client.1 = plain.client := by
  have := C73_resumed Besides P (P.beside (ω := ω)) ⟨rfl, rfl, rfl, by rintro k k' a rfl; exact ⟨rfl, rfl⟩⟩ r
    { «from» := r.from, strategy := r.strategy, forest := r.forest, handler := some (besides h) }
    ⟨rfl, rfl, rfl, ⟨h, besides h, hh, rfl, by rintro k k' p rfl; exact ⟨rfl, rfl⟩⟩⟩ s s' (watched_alike hs) files disk x (x, y) rfl
  exact ⟨this.verdict.symm, this.tape.symm, this.hits.symm, this.metrics.symm, this.complete.symm, this.client⟩

/-! ### Interference -/

theorem disturbed_alike (m : Nat → κ → κ) {w : With κ} (h : w.Unswayed) : w.Alike (fun _ _ => True) (w.disturbed m) := by
  cases w <;> simp only [With.disturbed, With.Alike, and_self]
  case on e l => exact ⟨trivial, fun _ _ _ _ => trivial⟩
  case faultHandler f => intro k k' p e _; exact ⟨h _ _ _ _, trivial⟩
  case panicHandler f => intro k k' a _; exact ⟨h _ _ _, trivial⟩
  case skipHandler f => intro k k' n e _; exact ⟨h _ _ _ _, trivial⟩

theorem disturbed_options (m : Nat → κ → κ) (s : List (With κ)) (h : ∀ w ∈ s, w.Unswayed) :
    OptionsAlike (fun _ _ => True) s (s.map (With.disturbed m)) := by
  induction s with
  | nil => exact .nil
  | cons w s ih => exact .both (disturbed_alike m (h w List.mem_cons_self)) (ih fun v hv => h v (List.mem_cons_of_mem _ hv))

/-- **C47** The handlers in the workers may share their state with the callbacks of the navigating goroutine: whatever they do to it
between any two of these calls, at whatever moment, what is sent to the pool, the notifications, the error, the metrics and the
sizes of the pool are those of the undisturbed session, provided that what the skip, fault and panic handlers answer does not
depend on that state. -/
theorem C47_shared (P : Platform κ) (hP : ∀ k k' a, (P.save k a).2 = (P.save k' a).2) (u : Using κ) (h : κ → Parcel → κ × Reply)
    (hh : u.handler = some h) (ho : u.o = none) (s : List (With κ)) (hs : ∀ w ∈ s, w.Unswayed) (m : Nat → κ → κ)
    (h' : κ × Nat → Parcel → (κ × Nat) × Reply) (pool : Option Err) (disk : Disk) (x : κ) :
    let l := runPrime P (.using u) (s.map (With.setting P)) pool disk x
    let d := runPrime (P.disturbed m) (.using { tree := u.tree, sub := u.sub, handler := some h' })
      ((s.map (With.disturbed m)).map (With.setting (P.disturbed m))) pool disk (x, 0)
    d.sent = l.sent ∧ d.report.verdict = l.report.verdict ∧ d.report.tape = l.report.tape ∧ d.report.metrics = l.report.metrics ∧
    d.size = l.size := by
  have hb := primary_alike (R := fun _ _ => True) (P := P) (P' := P.disturbed m) ⟨rfl, rfl, rfl, fun k k' a _ => ⟨hP _ _ _, trivial⟩⟩ (u := u)
    (u' := { tree := u.tree, sub := u.sub, handler := some h' }) rfl rfl (by rw [hh]; rfl) ⟨ho, rfl⟩ (disturbed_options m s hs)
  have hl := launch_alike hb h h' pool disk u.tree (x := x) (x' := (x, 0)) trivial
  simp only [runPrime, hh, Option.getD_some, Launch.sent]
  exact ⟨by rw [hl.1.hits], hl.1.verdict.symm, hl.1.tape.symm, hl.1.metrics.symm, hl.2.symm⟩

/-- **C47** The same for resumed sessions. -/
theorem C47_shared_resumed (P : Platform κ) (hP : ∀ k k' a, (P.save k a).2 = (P.save k' a).2) (r : Relic κ)
    (h : κ → Parcel → κ × Reply) (hh : r.handler = some h) (s : List (With κ)) (hs : ∀ w ∈ s, w.Unswayed) (m : Nat → κ → κ)
    (h' : κ × Nat → Parcel → (κ × Nat) × Reply) (files : String → Except Err Json) (pool : Option Err) (disk : Disk) (x : κ) :
    let l := runResume P (.relic r) (s.map (With.setting P)) files pool disk x
    let d := runResume (P.disturbed m) (.relic { «from» := r.from, strategy := r.strategy, forest := r.forest, handler := some h' })
      ((s.map (With.disturbed m)).map (With.setting (P.disturbed m))) files pool disk (x, 0)
    d.sent = l.sent ∧ d.report.verdict = l.report.verdict ∧ d.report.tape = l.report.tape ∧ d.report.metrics = l.report.metrics ∧
    d.size = l.size := by
  have hP' : P.Alike (fun _ _ => True) (P.disturbed m) := ⟨rfl, rfl, rfl, fun k k' a _ => ⟨hP _ _ _, trivial⟩⟩
  have hp := platform_alike hP' (r := r) (r' := { «from» := r.from, strategy := r.strategy, forest := r.forest, handler := some h' }) rfl
    (disturbed_options m s hs) (files r.from)
  simp only [runResume, hh, Option.getD_some, Launch.sent]
  rcases hp with ⟨e, e1, e2⟩ | ⟨o, o', a, e1, e2, ho⟩
  · rw [e1, e2]; exact ⟨rfl, rfl, rfl, rfl, rfl⟩
  · rw [e1, e2]
    have hl := relaunch_alike (buildRest_alike hP' a.sub (some r.strategy) (afterwards_alike ho)) r.strategy h h' pool disk a
      (x := x) (x' := (x, 0)) trivial
    exact ⟨by rw [hl.1.hits], hl.1.verdict.symm, hl.1.tape.symm, hl.1.metrics.symm, hl.2.symm⟩

/-- A small disk. -/
def Demo.pair : Disk := fun _ => .ok (.dir "r" none none [.file "f" none none])

/-- Not vacuous: two observers among the options of a client with a depth limit and a listener of its own. They count the entries
and, at the end, see the client's state; the session is what it is without them. -/
example :
    let s : List (With Nat) := [.depth 2, .on .begin (fun _ k => k + 100)]
    let s' : List (With (Nat × Nat)) :=
      [.on .descend (fun _ (k, y) => (k, y + 7)), With.beside (.depth 2), With.beside (.on .begin (fun _ k => k + 100)),
       .on .ended (fun _ (k, y) => (k, k + y))]
    Attended s s' ∧
    (walkPrime toyPlatform.beside (.using { tree := ["r"], sub := .files, handler := some (besides fun k _ => (k + 1, .ok none)) })
      (s'.map (With.setting toyPlatform.beside)) Demo.pair (0, 0)).client = (101, 115) ∧
    (walkPrime toyPlatform (.using (toyUsing .files)) (s.map (With.setting toyPlatform)) Demo.pair 0).client = 101 := by
  refine ⟨.watch .descend (fun _ _ y => y + 7) (.own _ (.own _ (.watch .ended (fun _ k y => k + y) .nil))), by decide +kernel, by decide +kernel⟩

/-- Not vacuous: a listener that shares its state with handlers in the workers. The proviso is needed: with a skip handler that looks
at the state, what the workers have done decides what is sent. -/
example :
    let go (m : Nat → Nat → Nat) (s : List (With Nat)) (disk : Disk) :=
      runPrime (toyPlatform.disturbed m) (.using { tree := ["r"], sub := .universal, handler := some (fun k _ => (k, .ok none)) })
        ((s.map (With.disturbed m)).map (With.setting (toyPlatform.disturbed m))) none disk (0, 0)
    let noisy : List (With Nat) := [.on .descend (fun _ k => k + 1)]
    let swayed : List (With Nat) := [.skipHandler (fun k _ e => (k, if k = 0 then .none else .all, e))]
    let bad : Disk := fun _ => .ok (.dir "r" none none [.dir "a" none (some (.code 5)) [], .file "b" none none])
    (∀ w ∈ noisy, w.Unswayed) ∧ (go (fun t k => k + t + 5) noisy Demo.pair).report.client.1 > 10 ∧
    (go (fun _ k => k) noisy Demo.pair).report.client.1 < 10 ∧
    (go (fun t k => k + t + 5) noisy Demo.pair).sent.length = 2 ∧
    (go (fun _ k => k) swayed bad).sent.length = 3 ∧ (go (fun _ k => k + 1) swayed bad).sent.length = 1 := by
  refine ⟨by simp [With.Unswayed], by decide +kernel, by decide +kernel, by decide +kernel, by decide +kernel, by decide +kernel⟩

end Traverse
