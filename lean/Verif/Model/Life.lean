import Verif.Model.Chain
/-
Life-cycle notification: life/events.go.
-/
namespace Traverse

/-- A handler of an event with payload `α`; `σ` is everything handlers can act on. (core/core-defs.go:91-103.) -/
abbrev Listener (α σ : Type) := α → σ → σ

/-- NotificationCtrl (life/events.go:11-17) with its Dispatcher (tapable-defs.go). `listeners = none` is the nil slice. -/
structure NotificationCtrl (α σ : Type) where
  invoke : Listener α σ
  nop : Listener α σ
  subscribed : Bool
  listeners : Option (List (Listener α σ))
  muted : Bool

variable {α σ : Type}

/-- The broadcasters (life/events.go:129-167): call every listener of the slice in order. -/
def broadcast (ls : List (Listener α σ)) : Listener α σ := fun a s => ls.foldl (fun s l => l a s) s

/-- NewNotificationCtrl with a nop handler (life/events.go:43-53, 139, 149, ...). -/
def NotificationCtrl.new : NotificationCtrl α σ :=
  { invoke := fun _ s => s, nop := fun _ s => s, subscribed := false, listeners := none, muted := false }

/-- On (life/events.go:95-111). -/
def NotificationCtrl.on (c : NotificationCtrl α σ) (h : Listener α σ) : NotificationCtrl α σ :=
  if !c.subscribed then { c with invoke := h, subscribed := true }
  else
    let ls := (match c.listeners with | none => [c.invoke] | some ls => ls) ++ [h]
    { c with listeners := some ls, invoke := broadcast ls }

/-- Dispatch (life/events.go:113-119). -/
def NotificationCtrl.dispatch (c : NotificationCtrl α σ) : Listener α σ := if c.muted then c.nop else c.invoke
/-- Mute (life/events.go:121-123). -/
def NotificationCtrl.mute (c : NotificationCtrl α σ) : NotificationCtrl α σ := { c with muted := true }
/-- Unmute (life/events.go:125-127). -/
def NotificationCtrl.unmute (c : NotificationCtrl α σ) : NotificationCtrl α σ := { c with muted := false }

/-- Controls (life/events.go:33-40); the payloads of the six events are put in one type. -/
structure Controls (σ : Type) where
  ascend : NotificationCtrl Note σ
  begin : NotificationCtrl Note σ
  descend : NotificationCtrl Note σ
  ended : NotificationCtrl Note σ
  wake : NotificationCtrl Note σ
  sleep : NotificationCtrl Note σ

/-- NewControls (life/events.go:55-64). -/
def Controls.new : Controls σ := ⟨.new, .new, .new, .new, .new, .new⟩
/-- MuteAll (life/events.go:66-73). -/
def Controls.muteAll (c : Controls σ) : Controls σ :=
  { ascend := c.ascend.mute, begin := c.begin.mute, descend := c.descend.mute, ended := c.ended.mute,
    wake := c.wake.mute, sleep := c.sleep.mute }
/-- UnmuteAll (life/events.go:75-81): Wake is missing. -/
def Controls.unmuteAll (c : Controls σ) : Controls σ :=
  { c with ascend := c.ascend.unmute, begin := c.begin.unmute, descend := c.descend.unmute, ended := c.ended.unmute,
           sleep := c.sleep.unmute }

/-- Events.Bind (life/events.go:85-92): which control an event's On goes to. -/
def Controls.get (c : Controls σ) : LifeEv → NotificationCtrl Note σ
  | .ascend => c.ascend
  | .begin => c.begin
  | .descend => c.descend
  | .ended => c.ended
  | .wake => c.wake
  | .sleep => c.sleep
/-- What On does to it (life/events.go:85-111). -/
def Controls.set (c : Controls σ) (e : LifeEv) (x : NotificationCtrl Note σ) : Controls σ :=
  match e with
  | .ascend => { c with ascend := x }
  | .begin => { c with begin := x }
  | .descend => { c with descend := x }
  | .ended => { c with ended := x }
  | .wake => { c with wake := x }
  | .sleep => { c with sleep := x }

end Traverse
