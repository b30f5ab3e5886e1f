import Verif.Model.Life
/-
C39: life-cycle notification. C40: muting and unmuting everything.
-/
namespace Traverse
variable {α σ : Type}

/-- What can happen to an event's control. -/
inductive CtrlOp (α σ : Type) where
  | on (h : Listener α σ)
  | mute
  | unmute

def CtrlOp.apply (c : NotificationCtrl α σ) : CtrlOp α σ → NotificationCtrl α σ
  | .on h => c.on h
  | .mute => c.mute
  | .unmute => c.unmute

/-- The listeners registered in a history, in registration order. -/
def listenersOf (ops : List (CtrlOp α σ)) : List (Listener α σ) :=
  ops.filterMap fun | .on h => some h | _ => none

/-- Whether the event is muted after a history: the last mute or unmute decides. -/
def mutedAfter : List (CtrlOp α σ) → Bool :=
  List.foldl (fun b op => match op with | .mute => true | .unmute => false | .on _ => b) false

structure CtrlInv (ops : List (CtrlOp α σ)) (c : NotificationCtrl α σ) : Prop where
  nop : c.nop = fun _ s => s
  muted : c.muted = mutedAfter ops
  sub : c.subscribed = !(listenersOf ops).isEmpty
  invoke : c.invoke = broadcast (listenersOf ops)
  listeners : c.listeners = if (listenersOf ops).length ≤ 1 then none else some (listenersOf ops)

theorem ctrl_inv (ops : List (CtrlOp α σ)) : CtrlInv ops (ops.foldl CtrlOp.apply NotificationCtrl.new) := by
  suffices h : ∀ (rest done : List (CtrlOp α σ)) c, CtrlInv done c → CtrlInv (done ++ rest) (rest.foldl CtrlOp.apply c) by
    have := h ops [] .new ⟨rfl, rfl, rfl, rfl, rfl⟩
    simpa using this
  intro rest
  induction rest with
  | nil => intro done c h; simpa using h
  | cons op rest ih =>
    intro done c h
    rw [List.foldl_cons, show done ++ op :: rest = (done ++ [op]) ++ rest by simp]
    apply ih
    have hmut : mutedAfter (done ++ [op]) = match op with | .mute => true | .unmute => false | .on _ => mutedAfter done := by
      unfold mutedAfter; rw [List.foldl_append]; rfl
    cases op with
    | mute =>
      have : listenersOf (done ++ [.mute]) = listenersOf done := by simp [listenersOf]
      exact ⟨h.nop, by rw [hmut]; rfl, by rw [this]; exact h.sub, by rw [this]; exact h.invoke, by rw [this]; exact h.listeners⟩
    | unmute =>
      have : listenersOf (done ++ [.unmute]) = listenersOf done := by simp [listenersOf]
      exact ⟨h.nop, by rw [hmut]; rfl, by rw [this]; exact h.sub, by rw [this]; exact h.invoke, by rw [this]; exact h.listeners⟩
    | on f =>
      have hl : listenersOf (done ++ [.on f]) = listenersOf done ++ [f] := by simp [listenersOf]
      have hs := h.sub
      have hi := h.invoke
      have hls := h.listeners
      rw [CtrlOp.apply]
      unfold NotificationCtrl.on
      rcases hL : listenersOf done with _ | ⟨a, _ | ⟨b, l⟩⟩
      · rw [hL] at hs hls
        simp only [List.isEmpty_nil, Bool.not_true] at hs
        rw [hs]
        refine ⟨h.nop, by rw [hmut]; exact h.muted, by rw [hl]; simp, ?_, ?_⟩
        · rw [hl, hL]; rfl
        · rw [hl, hL]; simpa using hls
      · rw [hL] at hs hls hi
        simp at hs hls
        have hinv : c.invoke = a := by rw [hi]; rfl
        simp only [hs, Bool.not_true, Bool.false_eq_true, if_false, hls, hinv]
        refine ⟨h.nop, by rw [hmut]; exact h.muted, by rw [hl]; simpa using hs, ?_, ?_⟩
        · rw [hl, hL]
        · rw [hl, hL]; simp
      · rw [hL] at hs hls hi
        simp at hs hls
        simp only [hs, Bool.not_true, Bool.false_eq_true, if_false, hls]
        refine ⟨h.nop, by rw [hmut]; exact h.muted, by rw [hl]; simpa using hs, ?_, ?_⟩
        · rw [hl, hL]
        · rw [hl, hL]; simp

/-- C39. After any history of registrations, mutes and unmutes: publishing an event with payload `a` calls every
registered listener exactly once, in registration order, unless the event is muted, when nothing is called. -/
theorem C39_notification (ops : List (CtrlOp α σ)) (a : α) (s : σ) :
    (ops.foldl CtrlOp.apply NotificationCtrl.new).dispatch a s =
      if mutedAfter ops then s else (listenersOf ops).foldl (fun s l => l a s) s := by
  have h := ctrl_inv ops
  unfold NotificationCtrl.dispatch
  rw [h.muted, h.nop, h.invoke]
  cases mutedAfter ops <;> rfl

/-- The same with listeners that write down their name: the names written are those of the registered listeners. -/
theorem C39_exactly_once (names : List String) (a : α) :
    ((names.map fun n => CtrlOp.on (fun _ s => s ++ [n])).foldl CtrlOp.apply NotificationCtrl.new).dispatch a
      ([] : List String) = names := by
  rw [C39_notification]
  have h1 : ∀ ns : List String, mutedAfter (ns.map fun n => (CtrlOp.on (fun _ s => s ++ [n]) : CtrlOp α (List String))) = false := by
    intro ns
    unfold mutedAfter
    induction ns with
    | nil => rfl
    | cons n ns ih => simpa using ih
  have h2 : ∀ ns : List String, listenersOf (ns.map fun n => (CtrlOp.on (fun _ s => s ++ [n]) : CtrlOp α (List String))) =
      ns.map fun n => fun _ s => s ++ [n] := by
    intro ns
    induction ns with
    | nil => rfl
    | cons n ns ih => simp only [listenersOf, List.map_cons, List.filterMap_cons] at ih ⊢; rw [ih]
  rw [h1, h2]
  have h3 : ∀ (ns : List String) (acc : List String),
      (ns.map fun n => (fun (_ : α) (s : List String) => s ++ [n])).foldl (fun s l => l a s) acc = acc ++ ns := by
    intro ns
    induction ns with
    | nil => intro acc; simp
    | cons n ns ih => intro acc; simp [ih]
  simpa using h3 names []

/-- Muting and then unmuting restores delivery. -/
theorem C39_mute_unmute (ops : List (CtrlOp α σ)) (a : α) (s : σ) :
    let c := ops.foldl CtrlOp.apply NotificationCtrl.new
    c.mute.dispatch a s = s ∧ c.mute.unmute.dispatch a s = (listenersOf ops).foldl (fun s l => l a s) s := by
  have h := ctrl_inv ops
  refine ⟨?_, ?_⟩
  · simp [NotificationCtrl.dispatch, NotificationCtrl.mute, h.nop]
  · simp [NotificationCtrl.dispatch, NotificationCtrl.mute, NotificationCtrl.unmute, h.invoke, broadcast]

/-- Not vacuous: three listeners, a mute and an unmute between. -/
example : let add (k : Nat) : CtrlOp Nat (List Nat) := .on (fun a s => s ++ [a * k])
    ([add 1, .mute, add 10, .unmute, add 100].foldl CtrlOp.apply NotificationCtrl.new).dispatch 7 [] = [7, 70, 700] := by
  decide

/-! ### C40 -/

/-- What can happen to all controls together. -/
inductive ControlsOp (σ : Type) where
  | on (e : LifeEv) (h : Listener Note σ)
  | muteAll
  | unmuteAll

def ControlsOp.apply (c : Controls σ) : ControlsOp σ → Controls σ
  | .on e h => c.set e ((c.get e).on h)
  | .muteAll => c.muteAll
  | .unmuteAll => c.unmuteAll

/-- The listeners of one event. -/
def ControlsOp.listeners (e : LifeEv) (ops : List (ControlsOp σ)) : List (Listener Note σ) :=
  ops.filterMap fun | .on e' h => if e' = e then some h else none | _ => none

/-- A history of all controls as a history of one of them. -/
def ControlsOp.project (e : LifeEv) : ControlsOp σ → Option (CtrlOp Note σ)
  | .on e' h => if e' = e then some (.on h) else none
  | .muteAll => some .mute
  | .unmuteAll => if e = .wake then none else some .unmute

theorem controls_project (e : LifeEv) (ops : List (ControlsOp σ)) :
    (ops.foldl ControlsOp.apply Controls.new).get e = (ops.filterMap (ControlsOp.project e)).foldl CtrlOp.apply .new := by
  suffices h : ∀ (ops : List (ControlsOp σ)) c, (ops.foldl ControlsOp.apply c).get e =
      (ops.filterMap (ControlsOp.project e)).foldl CtrlOp.apply (c.get e) by
    rw [h]; cases e <;> rfl
  intro ops
  induction ops with
  | nil => intro c; rfl
  | cons op ops ih =>
    intro c
    rw [List.foldl_cons, ih]
    cases op with
    | on e' h =>
      by_cases he : e' = e
      · subst he
        simp only [List.filterMap_cons, ControlsOp.project, if_true, List.foldl_cons]
        congr 1
        cases e' <;> rfl
      · simp only [List.filterMap_cons, ControlsOp.project, he, if_false]
        congr 1
        cases e' <;> cases e <;> first | rfl | exact absurd rfl he
    | muteAll =>
      simp only [List.filterMap_cons, ControlsOp.project, List.foldl_cons]
      congr 1
      cases e <;> rfl
    | unmuteAll =>
      cases e <;> simp [ControlsOp.project] <;> rfl

theorem listenersOf_project (e : LifeEv) (ops : List (ControlsOp σ)) :
    listenersOf (ops.filterMap (ControlsOp.project e)) = ControlsOp.listeners e ops := by
  unfold listenersOf ControlsOp.listeners
  rw [List.filterMap_filterMap]
  congr 1
  funext op
  cases op with
  | on e' h => by_cases he : e' = e <;> simp [ControlsOp.project, he]
  | muteAll => rfl
  | unmuteAll => simp only [ControlsOp.project]; split <;> rfl

/-- **C40 is false of the code**: after MuteAll and UnmuteAll a listener of the Wake event is not called. -/
theorem C40_wake_stays_muted :
    ([ControlsOp.on .wake (fun _ (s : Nat) => s + 1), .muteAll, .unmuteAll].foldl ControlsOp.apply Controls.new).wake.dispatch
      .wake 0 = 0 := by
  decide

/-- **C40** (partial: Wake is the exception, see `C40_wake_stays_muted`). After any history: MuteAll silences each of the
six events, and UnmuteAll restores delivery — all registered listeners, once each, in order — of every event other than
Wake. Missing: Wake. -/
theorem C40_muteAll_partial (ops : List (ControlsOp σ)) (e : LifeEv) (a : Note) (s : σ) :
    let c := ops.foldl ControlsOp.apply Controls.new
    (c.muteAll.get e).dispatch a s = s ∧
    (e ≠ .wake → (c.muteAll.unmuteAll.get e).dispatch a s =
      (ControlsOp.listeners e ops).foldl (fun s l => l a s) s) := by
  intro c
  have hc := controls_project e ops
  have h39 := C39_mute_unmute (ops.filterMap (ControlsOp.project e)) a s
  simp only at h39
  rw [← hc, listenersOf_project] at h39
  refine ⟨?_, ?_⟩
  · refine Eq.trans ?_ h39.1
    cases e <;> rfl
  · intro he
    refine Eq.trans ?_ h39.2
    cases e <;> first | rfl | exact absurd rfl he

/-- The invocation chain's model of muting (`Traverse.unmuteAll`, used for fastward resumes) agrees with the controls. -/
theorem controls_unmuteAll (c : Controls σ) (e : LifeEv) :
    (c.unmuteAll.get e).muted = Traverse.unmuteAll (fun e => (c.get e).muted) e ∧ (c.muteAll.get e).muted = true := by
  cases e <;> exact ⟨rfl, rfl⟩

/-- Not vacuous: two Sleep listeners, restored. -/
example :
    (([ControlsOp.on .sleep (fun _ (s : List Nat) => s ++ [1]), .on .wake (fun _ s => s ++ [2]),
      .on .sleep (fun _ s => s ++ [3])].foldl ControlsOp.apply Controls.new).muteAll.unmuteAll.get .sleep).dispatch
      .sleep [] = [1, 3] := by
  decide

end Traverse
