import Verif.Model.Broker
/-
The messages of the bus and what it tells about itself: internal/third/bus/broker.go, internal/services/broker.go.
-/
namespace Traverse

/-- Message (broker.go:33-41): `occurredAt = 0` is the zero time; data are known by numbers. -/
structure Message where
  id : String := ""
  txId : String := ""
  topic : String := ""
  source : String := ""
  occurredAt : Nat := 0
  data : Nat := 0
  deriving DecidableEq, Repr

/-- The two values the bus asks a context for (broker.go:64-69); a missing value, or one that is not a string, reads as "". -/
structure BusCtx where
  source : String := ""
  txId : String := ""
  deriving DecidableEq, Repr

/-- WithID (broker.go:88-94). -/
def withID (id : String) (m : Message) : Message := { m with id := id }

/-- WithTxID (broker.go:97-103). -/
def withTxID (txId : String) (m : Message) : Message := { m with txId := txId }

/-- WithSource (broker.go:106-112). -/
def withSource (source : String) (m : Message) : Message := { m with source := source }

/-- WithOccurredAt (broker.go:115-121). -/
def withOccurredAt (t : Nat) (m : Message) : Message := { m with occurredAt := t }

/-- fmt.Sprintf("%03d", n), the format of internal/services/broker.go:12: decimal digits, padded with zeros to three. -/
def padded (n : Nat) : String :=
  String.ofList (List.replicate (3 - (Nat.toDigits 10 n).length) '0' ++ Nat.toDigits 10 n)

/-- Sequential.Generate (broker.go:341-345): counts up first, then prints. The counter is unbounded here, an int in Go. -/
def sequential (g : Nat) : String × Nat := (padded (g + 1), g + 1)

/-- A delivery: the handler called, with which context and message (broker.go:150-152). -/
structure Delivery where
  handler : BusHandler
  ctx : BusCtx
  message : Message
  deriving DecidableEq, Repr

/-- Emit (broker.go:125-155): `g` is the state of the generator, `now` the clock. `none`: the topic is not known, and
nothing happens. -/
def Broker.send (b : Broker) (g : Nat) (now : Nat) (ctx : BusCtx) (topic : String) (data : Nat) :
    Option (List Delivery × Nat) :=
  match b.topics topic with
  | none => none
  | some handlers =>
    let (txId, ctx, g) := if ctx.txId = "" then
        let (t, g) := sequential g
        (t, { ctx with txId := t }, g)
      else (ctx.txId, ctx, g)
    let (id, g) := sequential g
    let e : Message := { id := id, topic := topic, data := data, occurredAt := now, txId := txId, source := ctx.source }
    some (handlers.map (fun h => ⟨h, ctx, e⟩), g)

/-- EmitWithOpts (broker.go:159-188). -/
def Broker.sendWith (b : Broker) (g : Nat) (now : Nat) (ctx : BusCtx) (topic : String) (data : Nat)
    (options : List (Message → Message)) : Option (List Delivery × Nat) :=
  match b.topics topic with
  | none => none
  | some handlers =>
    let e : Message := options.foldl (fun e o => o e) { topic := topic, data := data }
    let (e, g) := if e.txId = "" then
        let (t, g) := sequential g
        ({ e with txId := t }, g)
      else (e, g)
    let (e, g) := if e.id = "" then
        let (i, g) := sequential g
        ({ e with id := i }, g)
      else (e, g)
    let e := if e.occurredAt = 0 then { e with occurredAt := now } else e
    some (handlers.map (fun h => ⟨h, ctx, e⟩), g)

/-- Topics (broker.go:191-200): the map's keys, which Go yields in the given order. -/
def Broker.topicList (b : Broker) (order : List String) : List String := order.filter (fun t => (b.topics t).isSome)

/-- HandlerKeys (broker.go:230-239), likewise. -/
def Broker.handlerKeys (b : Broker) (order : List String) : List String := order.filter (fun k => (b.handlers k).isSome)

/-- TopicHandlerKeys (broker.go:217-227): no handlers for a topic that is not known. -/
def Broker.topicHandlerKeys (b : Broker) (topic : String) : List String := ((b.topics topic).getD []).map (·.key)

/-- HandlerTopicSubscriptions (broker.go:242-244, 317-330): goes through the topics in the given order. -/
def Broker.subscriptions (m : String → String → Bool) (b : Broker) (order : List String) (key : String) : List String :=
  match b.handlers key with
  | none => []
  | some h => (b.topicList order).filter (fun t => m h.matcher t)

/-- RegisterTopics (broker.go:203-207): each topic with the order in which Go goes through the handlers. -/
def Broker.registerTopics (m : String → String → Bool) (b : Broker) (topics : List (String × List String)) : Broker :=
  topics.foldl (fun b t => b.registerTopic m t.2 t.1) b

/-- DeregisterTopics (broker.go:210-214). -/
def Broker.deregisterTopics (b : Broker) (topics : List String) : Broker := topics.foldl (fun b t => b.deregisterTopic t) b

/-- The topics of internal/services/broker.go:13-30. -/
def serviceTopics : List String :=
  ["topic:init.plugins", "topic:intercept.navigator", "topic:navigation.complete", "topic:options.announce",
   "topic:options.before", "topic:options.complete"]

/-- Reset (internal/services/broker.go:43-62): a new bus with the service topics; there are no handlers to go through. -/
def Broker.reset (m : String → String → Bool) : Broker :=
  Broker.new.registerTopics m (serviceTopics.map (fun t => (t, [])))

end Traverse
