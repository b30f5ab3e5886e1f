/-
The message bus: internal/third/bus/broker.go.
-/
namespace Traverse

/-- Handler (broker.go:44-52): `fn` stands for the function. -/
structure BusHandler where
  key : String
  fn : Nat
  matcher : String
  deriving DecidableEq, Repr

/-- Broker (broker.go:19-23): Go maps as partial functions. Iterating over a map happens in an arbitrary order: where the
order can be seen, the operation takes it as an argument. `regexp.MatchString` is the parameter `m`. Handlers are taken
not to call the broker back while a message is being delivered. -/
structure Broker where
  topics : String → Option (List BusHandler)
  handlers : String → Option BusHandler

/-- New (broker.go:75-85). -/
def Broker.new : Broker := ⟨fun _ => none, fun _ => none⟩

variable (m : String → String → Bool)

/-- Whether the range over b.topics in handlerTopicSubscriptions (broker.go:317-330) yields this topic. -/
def Broker.subscribed (b : Broker) (key topic : String) : Bool :=
  match b.handlers key with
  | none => false
  | some h => (b.topics topic).isSome && m h.matcher topic

/-- deregisterTopicHandler (broker.go:283-292) on one topic's slice: the first handler with that key is overwritten
with the last one and the slice is shortened by one. -/
def dropHandler (key : String) (l : List BusHandler) : List BusHandler :=
  match l.findIdx? (fun h => h.key = key) with
  | none => l
  | some i =>
    match l.getLast? with
    | none => l
    | some z => (l.set i z).dropLast

/-- deregisterHandler (broker.go:270-277). -/
def Broker.deregister (b : Broker) (key : String) : Broker :=
  if (b.handlers key).isSome then
    { topics := fun t => if b.subscribed m key t then (b.topics t).map (dropHandler key) else b.topics t
      handlers := fun k => if k = key then none else b.handlers k }
  else b

/-- registerHandler (broker.go:262-268), RegisterHandler (247-250). -/
def Broker.register (b : Broker) (key : String) (fn : Nat) (matcher : String) : Broker :=
  let h : BusHandler := ⟨key, fn, matcher⟩
  let b := b.deregister m key
  let b := { b with handlers := fun k => if k = key then some h else b.handlers k }
  { b with topics := fun t => if b.subscribed m key t then (b.topics t).map (· ++ [h]) else b.topics t }

/-- buildHandlers (broker.go:306-315), going through the keys of b.handlers in the given order. -/
def Broker.build (b : Broker) (order : List String) (topic : String) : List BusHandler :=
  (order.filterMap b.handlers).filter (fun h => m h.matcher topic)

/-- registerTopic (broker.go:294-300). -/
def Broker.registerTopic (b : Broker) (order : List String) (topic : String) : Broker :=
  if (b.topics topic).isSome then b
  else { b with topics := fun t => if t = topic then some (b.build m order topic) else b.topics t }

/-- deregisterTopic (broker.go:302-304). -/
def Broker.deregisterTopic (b : Broker) (topic : String) : Broker :=
  { b with topics := fun t => if t = topic then none else b.topics t }

/-- Emit (broker.go:125-155) and EmitWithOpts (159-188): the handlers called, in order, or the error. The
messages themselves are in Model/Message. -/
def Broker.emit (b : Broker) (topic : String) : Option (List BusHandler) := b.topics topic

end Traverse
