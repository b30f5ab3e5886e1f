import Verif.Model.Concurrent
/-
Concurrent sessions with an output function: synchronise.go, pref/options-concurrency.go, core/async.go. As for the input
side, the pool is third party and its documented contract (options-concurrency.go:22-48) is modelled; a send that times out
(TimeoutOnSend) is not.
-/
namespace Traverse
variable {κ : Type}

/-- What the client's output function does with the stream it is given (options-concurrency.go:44-47): hand it to a goroutine
that reads all of it, and return; read all of it before returning; or return without anybody reading. -/
inductive Consumer where
  | beside
  | inPlace
  | nobody
  deriving DecidableEq, Repr

/-- The sizes of the pool (synchronise.go:87-95). -/
structure FlowSize where
  workers : Nat
  queue : Nat
  outputs : Nat
  deriving DecidableEq, Repr

/-- The pool, the navigator feeding it and the client reading from it. The fields of `Pool`, and: `returned`, the output
function has returned and the navigator is on its way (synchronise.go:104-108); `closed`, the navigator is done and has closed
the input (synchronise.go:115-119); `hold`, outputs of workers that wait to send them; `line`, the buffer of the output
channel; `seen`, what the client has read; `log`, what the handler answered, call by call. -/
structure Flow (κ : Type) where
  todo : List Parcel
  queue : List Parcel := []
  hand : Option Parcel := none
  given : List Parcel := []
  busy : List Parcel := []
  called : List Parcel := []
  returned : Bool := false
  closed : Bool := false
  hold : List (Parcel × Option Err) := []
  line : List (Parcel × Option Err) := []
  seen : List (Parcel × Option Err) := []
  log : List (Parcel × Option Err) := []
  client : κ

/-- The pool has been created and the output function is about to be called. (synchronise.go:77-106.) -/
def Launch.flow (l : Launch κ) (k : κ) : Flow κ := { todo := l.sent, client := k }

/-- No work remains and nothing is left to read. (synchronise.go:53-58.) -/
structure Flow.Drained (s : Flow κ) : Prop where
  todo : s.todo = []
  queue : s.queue = []
  hand : s.hand = none
  given : s.given = []
  busy : s.busy = []
  hold : s.hold = []
  line : s.line = []

/-- One step of one of the goroutines. Until the output function returns, the navigator sends nothing: it is called on the
navigator's own goroutine (synchronise.go:104-108). The stream ends when the input has been closed and all is done; only
then does a function that reads it in place return. A worker is free again when its output has been sent
(options-concurrency.go:24-31): into the buffer, or directly to a reader that waits. -/
inductive Flow.Step (size : FlowSize) (c : Consumer) (h : κ → Parcel → κ × Reply) : Flow κ → Flow κ → Prop
  | returns {s} (hr : s.returned = false) (hc : c = .inPlace → s.closed = true ∧ s.Drained) :
      Step size c h s { s with returned := true }
  | send {s p ps} (hr : s.returned = true) (ht : s.todo = p :: ps) (hq : s.queue.length < size.queue) :
      Step size c h s { s with todo := ps, queue := s.queue ++ [p] }
  | handover {s p ps} (hr : s.returned = true) (ht : s.todo = p :: ps) (hq : s.queue = []) (hh : s.hand = none) :
      Step size c h s { s with todo := ps, hand := some p }
  | close {s} (hr : s.returned = true) (ht : s.todo = []) (hc : s.closed = false) :
      Step size c h s { s with closed := true }
  | take {s p q} (hq : s.queue = p :: q) (hh : s.hand = none) :
      Step size c h s { s with queue := q, hand := some p }
  | give {s p} (hh : s.hand = some p) (hw : s.given.length + s.busy.length + s.hold.length < size.workers) :
      Step size c h s { s with hand := none, given := s.given ++ [p] }
  | begin {s p l r} (hg : s.given = l ++ p :: r) :
      Step size c h s { s with given := l ++ r, busy := s.busy ++ [p], called := s.called ++ [p] }
  | finish {s p l r k e} (hb : s.busy = l ++ p :: r) (hr : h s.client p = (k, .ok e)) :
      Step size c h s { s with busy := l ++ r, hold := s.hold ++ [(p, e)], log := s.log ++ [(p, e)], client := k }
  | emit {s o l r} (ho : s.hold = l ++ o :: r) (hl : s.line.length < size.outputs) :
      Step size c h s { s with hold := l ++ r, line := s.line ++ [o] }
  | pass {s o l r} (hc : c ≠ .nobody) (ho : s.hold = l ++ o :: r) (hl : s.line = []) :
      Step size c h s { s with hold := l ++ r, seen := s.seen ++ [o] }
  | read {s o r} (hc : c ≠ .nobody) (hl : s.line = o :: r) :
      Step size c h s { s with line := r, seen := s.seen ++ [o] }

/-- A schedule of `n` steps. (synchronise.go:52-109.) -/
inductive Flow.Steps (size : FlowSize) (c : Consumer) (h : κ → Parcel → κ × Reply) : Nat → Flow κ → Flow κ → Prop
  | refl {s} : Steps size c h 0 s s
  | tail {n s t u} (a : Steps size c h n s t) (b : Flow.Step size c h t u) : Steps size c h (n + 1) s u

/-- The sizes asked for (synchronise.go:87-95): there is an output channel only if there is an output function. -/
def Options.flow (o : Options κ) : Option FlowSize :=
  if o.concurrency.output.on.isSome then
    some ⟨o.concurrency.now, o.concurrency.inputSize, o.concurrency.output.size⟩
  else none

end Traverse
