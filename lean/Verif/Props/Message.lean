import Verif.Model.Message
import Verif.Props.Broker
/-
C65: the messages of the bus; C42: what the bus tells about itself.
-/
namespace Traverse

/-! ### Specification -/

/-- What can happen on a bus: it is changed, or a message is emitted in one of the two ways. `now` is the clock, which
never shows the zero time. -/
inductive BusAct where
  | change (op : BusOp)
  | emit (now : Nat) (ctx : BusCtx) (topic : String) (data : Nat)
  | emitWith (now : Nat) (ctx : BusCtx) (topic : String) (data : Nat) (options : List (Message → Message))

/-- What the options make of a message. -/
def optioned (topic : String) (data : Nat) (options : List (Message → Message)) : Message :=
  options.foldl (fun e o => o e) { topic := topic, data := data }

/-- The changes among the acts. -/
def BusAct.changes (acts : List BusAct) : List BusOp :=
  acts.filterMap (fun a => match a with | .change op => some op | _ => none)

/-- Whether the bus has to make up the identifier of the message. -/
def BusAct.Anonymous : BusAct → Prop
  | .change _ => False
  | .emit .. => True
  | .emitWith _ _ topic data options => (optioned topic data options).id = ""

/-- One act: what is delivered (nothing if the act is a change, or an error) and the bus and generator afterwards. -/
def BusAct.step (m : String → String → Bool) (s : Broker × Nat) : BusAct → Option (List Delivery) × (Broker × Nat)
  | .change op => (none, (op.apply m s.1, s.2))
  | .emit now ctx topic data =>
    match s.1.send s.2 now ctx topic data with
    | none => (none, s)
    | some (ds, g) => (some ds, (s.1, g))
  | .emitWith now ctx topic data options =>
    match s.1.sendWith s.2 now ctx topic data options with
    | none => (none, s)
    | some (ds, g) => (some ds, (s.1, g))

/-- What is delivered by each of a list of acts. -/
def BusAct.run (m : String → String → Bool) : Broker × Nat → List BusAct → List (Option (List Delivery))
  | _, [] => []
  | s, a :: as => (a.step m s).1 :: BusAct.run m (a.step m s).2 as

/-- The bus after a list of acts. -/
def BusAct.final (m : String → String → Bool) (s : Broker × Nat) (acts : List BusAct) : Broker × Nat :=
  acts.foldl (fun s a => (a.step m s).2) s

/-! ### Proof -/

theorem padded_inj {a b : Nat} (h : padded a = padded b) : a = b := by
  have key : ∀ n, Nat.ofDigitChars 10 (padded n).toList 0 = n := by
    intro n
    simp [padded, String.toList_ofList, Nat.ofDigitChars_append, Nat.ofDigitChars_replicate_zero,
      Nat.ofDigitChars_ten_toDigits]
  rw [← key a, ← key b, h]

theorem padded_ne_empty (n : Nat) : padded n ≠ "" := by
  intro h
  have := congrArg String.toList h
  simp [padded, String.toList_ofList, Nat.toDigits_ne_nil] at this

/-- What an emission without options delivers. -/
theorem Broker.send_some {b : Broker} {g now ctx topic data ds g'} (h : b.send g now ctx topic data = some (ds, g')) :
    ∃ hs e c, b.topics topic = some hs ∧ ds = hs.map (fun h => ⟨h, c, e⟩) ∧
      e.topic = topic ∧ e.data = data ∧ e.occurredAt = now ∧ e.source = ctx.source ∧ c.source = ctx.source ∧
      c.txId = e.txId ∧
      ((ctx.txId = "" ∧ e.txId = padded (g + 1) ∧ e.id = padded (g + 2) ∧ g' = g + 2) ∨
       (ctx.txId ≠ "" ∧ e.txId = ctx.txId ∧ e.id = padded (g + 1) ∧ g' = g + 1)) := by
  unfold Broker.send at h
  cases ht : b.topics topic with
  | none => rw [ht] at h; cases h
  | some hs =>
    rw [ht] at h
    by_cases hc : ctx.txId = ""
    · simp only [hc, if_true, sequential, Option.some.injEq, Prod.mk.injEq] at h
      obtain ⟨rfl, rfl⟩ := h
      exact ⟨hs, _, _, rfl, rfl, rfl, rfl, rfl, rfl, rfl, rfl, .inl ⟨hc, rfl, rfl, rfl⟩⟩
    · simp only [hc, if_false, sequential, Option.some.injEq, Prod.mk.injEq] at h
      obtain ⟨rfl, rfl⟩ := h
      exact ⟨hs, _, _, rfl, rfl, rfl, rfl, rfl, rfl, rfl, rfl, .inr ⟨hc, rfl, rfl, rfl⟩⟩

/-- What an emission with options delivers. -/
theorem Broker.sendWith_some {b : Broker} {g now ctx topic data options ds g'}
    (h : b.sendWith g now ctx topic data options = some (ds, g')) :
    ∃ hs e, b.topics topic = some hs ∧ ds = hs.map (fun h => ⟨h, ctx, e⟩) ∧
      e.topic = (optioned topic data options).topic ∧ e.data = (optioned topic data options).data ∧
      e.source = (optioned topic data options).source ∧
      e.occurredAt = (if (optioned topic data options).occurredAt = 0 then now else (optioned topic data options).occurredAt) ∧
      g ≤ g' ∧
      ((optioned topic data options).txId ≠ "" → e.txId = (optioned topic data options).txId) ∧
      ((optioned topic data options).txId = "" → e.txId = padded (g + 1) ∧ g + 1 ≤ g') ∧
      ((optioned topic data options).id ≠ "" → e.id = (optioned topic data options).id) ∧
      ((optioned topic data options).id = "" → e.id = padded g' ∧ g < g' ∧
        ((optioned topic data options).txId = "" → g + 1 < g')) := by
  unfold Broker.sendWith at h
  cases ht : b.topics topic with
  | none => rw [ht] at h; cases h
  | some hs =>
    rw [ht] at h
    have ho : options.foldl (fun e o => o e) ({ topic := topic, data := data } : Message) = optioned topic data options := rfl
    simp only [ho] at h
    generalize optioned topic data options = e0 at h
    by_cases h1 : e0.txId = "" <;> by_cases h2 : e0.id = "" <;> by_cases h3 : e0.occurredAt = 0 <;>
      simp only [h1, h2, h3, if_true, if_false, sequential, Option.some.injEq, Prod.mk.injEq] at h <;>
      obtain ⟨rfl, rfl⟩ := h <;>
      exact ⟨hs, _, rfl, rfl, by simp [h1, h2, h3] <;> omega⟩

private theorem BusAct.step_gen (m : String → String → Bool) (s : Broker × Nat) (a : BusAct) :
    s.2 ≤ (a.step m s).2.2 ∧ ∀ ds, (a.step m s).1 = some ds → ∀ d ∈ ds, a.Anonymous →
      ∃ k, s.2 < k ∧ k ≤ (a.step m s).2.2 ∧ d.message.id = padded k := by
  cases a with
  | change op => exact ⟨Nat.le_refl _, fun ds h => nomatch h⟩
  | emit now ctx topic data =>
    simp only [BusAct.step]
    cases hs : s.1.send s.2 now ctx topic data with
    | none => exact ⟨Nat.le_refl _, fun ds h => nomatch h⟩
    | some p =>
      obtain ⟨ds0, g'⟩ := p
      obtain ⟨hs', e, c, -, rfl, -, -, -, -, -, -, hh⟩ := Broker.send_some hs
      refine ⟨by simp only; omega, fun ds h d hd _ => ?_⟩
      cases h
      obtain ⟨x, -, rfl⟩ := List.mem_map.mp hd
      rcases hh with ⟨-, -, h1, h2⟩ | ⟨-, -, h1, h2⟩
      · exact ⟨_, by omega, by simp only; omega, h1⟩
      · exact ⟨_, by omega, by simp only; omega, h1⟩
  | emitWith now ctx topic data options =>
    simp only [BusAct.step]
    cases hs : s.1.sendWith s.2 now ctx topic data options with
    | none => exact ⟨Nat.le_refl _, fun ds h => nomatch h⟩
    | some p =>
      obtain ⟨ds0, g'⟩ := p
      obtain ⟨hs', e, -, rfl, -, -, -, -, h0, -, -, -, hh⟩ := Broker.sendWith_some hs
      refine ⟨h0, fun ds h d hd ha => ?_⟩
      cases h
      obtain ⟨x, -, rfl⟩ := List.mem_map.mp hd
      obtain ⟨h1, h2, -⟩ := hh ha
      exact ⟨_, h2, Nat.le_refl _, h1⟩

private theorem BusAct.run_gen (m : String → String → Bool) (acts : List BusAct) :
    ∀ (s : Broker × Nat) (j : Nat) a ds, acts[j]? = some a → (BusAct.run m s acts)[j]? = some (some ds) → a.Anonymous →
      ∀ d ∈ ds, ∃ k, s.2 < k ∧ d.message.id = padded k := by
  induction acts with
  | nil => intro s j a ds h; simp at h
  | cons a0 acts ih =>
    intro s j a ds ha hr han d hd
    have hg := BusAct.step_gen m s a0
    cases j with
    | zero =>
      simp only [List.getElem?_cons_zero, Option.some.injEq, BusAct.run] at ha hr
      subst ha
      obtain ⟨k, h1, -, h2⟩ := hg.2 ds hr d hd han
      exact ⟨k, h1, h2⟩
    | succ j =>
      simp only [List.getElem?_cons_succ, BusAct.run] at ha hr
      obtain ⟨k, h1, h2⟩ := ih _ j a ds ha hr han d hd
      exact ⟨k, by omega, h2⟩

/-! ### C65 -/

/-- **C65, identifiers.** Over any history of a bus, changes and emissions in any order, no identifier the bus makes up
is used for two messages: two emissions for which the bus makes up the identifier deliver messages with different
identifiers, and none of them is empty. -/
theorem C65_identifiers_unique (m : String → String → Bool) (b : Broker) (g : Nat) (acts : List BusAct) (i j : Nat)
    (hij : i < j) (a a' : BusAct) (ha : acts[i]? = some a) (ha' : acts[j]? = some a') (hn : a.Anonymous)
    (hn' : a'.Anonymous) (ds ds' : List Delivery) (hd : (BusAct.run m (b, g) acts)[i]? = some (some ds))
    (hd' : (BusAct.run m (b, g) acts)[j]? = some (some ds')) :
    ∀ d ∈ ds, ∀ d' ∈ ds', d.message.id ≠ d'.message.id ∧ d.message.id ≠ "" ∧ d'.message.id ≠ "" := by
  generalize (b, g) = s at hd hd'
  induction acts generalizing s i j with
  | nil => simp at ha
  | cons a0 acts ih =>
    intro d hmd d' hmd'
    cases i with
    | zero =>
      obtain ⟨j, rfl⟩ : ∃ j', j = j' + 1 := ⟨j - 1, by omega⟩
      simp only [List.getElem?_cons_zero, Option.some.injEq, BusAct.run, List.getElem?_cons_succ] at ha ha' hd hd'
      subst ha
      obtain ⟨k, h1, h2, h3⟩ := (BusAct.step_gen m s a0).2 ds hd d hmd hn
      obtain ⟨k', h1', h3'⟩ := BusAct.run_gen m acts _ j a' ds' ha' hd' hn' d' hmd'
      rw [h3, h3']
      refine ⟨fun he => ?_, padded_ne_empty _, padded_ne_empty _⟩
      have := padded_inj he
      omega
    | succ i =>
      obtain ⟨j, rfl⟩ : ∃ j', j = j' + 1 := ⟨j - 1, by omega⟩
      simp only [BusAct.run, List.getElem?_cons_succ] at ha ha' hd hd'
      exact ih i j (by omega) ha ha' _ hd hd' d hmd d' hmd'

/-- **C65, plain messages.** Emit gives every handler of the topic the same message: it carries the topic, the data, the
time and the source of the context; its identifier and its transaction are not empty and differ unless the context
brought the transaction; a transaction in the context is kept; and the handlers are given a context with the transaction
of the message, so that what they emit with it belongs to the same transaction. -/
theorem C65_plain (b : Broker) (g now : Nat) (ctx : BusCtx) (topic : String) (data : Nat) (ds : List Delivery) (g' : Nat)
    (h : b.send g now ctx topic data = some (ds, g')) :
    ∃ e : Message, (∀ d ∈ ds, d.message = e) ∧ e.topic = topic ∧ e.data = data ∧ e.occurredAt = now ∧
      e.source = ctx.source ∧ e.id ≠ "" ∧ e.txId ≠ "" ∧ (ctx.txId ≠ "" → e.txId = ctx.txId) ∧
      (ctx.txId = "" → e.txId ≠ e.id) ∧
      (∀ d ∈ ds, d.ctx.txId = e.txId ∧ d.ctx.source = ctx.source ∧
        ∀ g2 now2 topic2 data2 ds2 g2', b.send g2 now2 d.ctx topic2 data2 = some (ds2, g2') →
          ∀ d2 ∈ ds2, d2.message.txId = e.txId ∧ d2.message.source = ctx.source) := by
  obtain ⟨hs, e, c, -, rfl, h1, h2, h3, h4, h5, h6, h7⟩ := Broker.send_some h
  have htx : e.txId ≠ "" := by
    rcases h7 with ⟨-, h, -⟩ | ⟨h0, h, -⟩
    · rw [h]; exact padded_ne_empty _
    · rwa [h]
  refine ⟨e, ?_, h1, h2, h3, h4, ?_, htx, ?_, ?_, ?_⟩
  · intro d hd
    obtain ⟨x, -, rfl⟩ := List.mem_map.mp hd
    rfl
  · rcases h7 with ⟨-, -, h, -⟩ | ⟨-, -, h, -⟩ <;> rw [h] <;> exact padded_ne_empty _
  · intro hne
    rcases h7 with ⟨h0, -⟩ | ⟨-, h, -⟩
    · exact absurd h0 hne
    · exact h
  · intro he hx
    rcases h7 with ⟨-, ht, hi, -⟩ | ⟨h0, -⟩
    · rw [ht, hi] at hx
      have := padded_inj hx
      omega
    · exact absurd he h0
  · intro d hd
    obtain ⟨x, -, rfl⟩ := List.mem_map.mp hd
    refine ⟨h6, h5, fun g2 now2 topic2 data2 ds2 g2' hs2 d2 hd2 => ?_⟩
    obtain ⟨hs', e', c', -, rfl, -, -, -, k4, -, -, k7⟩ := Broker.send_some hs2
    obtain ⟨x2, -, rfl⟩ := List.mem_map.mp hd2
    refine ⟨?_, by rw [k4, h5]⟩
    rcases k7 with ⟨k0, -⟩ | ⟨-, k, -⟩
    · rw [h6] at k0; exact absurd k0 htx
    · rw [k, h6]

/-- **C65, messages with options.** EmitWithOpts gives every handler of the topic the same message: what the options,
applied one after the other, made of it, where an identifier, transaction or time they left empty is filled in. -/
theorem C65_options (b : Broker) (g now : Nat) (ctx : BusCtx) (topic : String) (data : Nat)
    (options : List (Message → Message)) (ds : List Delivery) (g' : Nat) (hnow : now ≠ 0)
    (h : b.sendWith g now ctx topic data options = some (ds, g')) :
    ∃ e : Message, (∀ d ∈ ds, d.message = e ∧ d.ctx = ctx) ∧
      let o := optioned topic data options
      e.topic = o.topic ∧ e.data = o.data ∧ e.source = o.source ∧
      (o.id ≠ "" → e.id = o.id) ∧ (o.txId ≠ "" → e.txId = o.txId) ∧ (o.occurredAt ≠ 0 → e.occurredAt = o.occurredAt) ∧
      e.id ≠ "" ∧ e.txId ≠ "" ∧ e.occurredAt ≠ 0 ∧ (o.id = "" → o.txId = "" → e.id ≠ e.txId) := by
  obtain ⟨hs, e, -, rfl, h1, h2, h3, h4, h5, h6, h7, h8, h9⟩ := Broker.sendWith_some h
  refine ⟨e, ?_, h1, h2, h3, h8, h6, ?_, ?_, ?_, ?_, ?_⟩
  · intro d hd
    obtain ⟨x, -, rfl⟩ := List.mem_map.mp hd
    exact ⟨rfl, rfl⟩
  · intro ho; rw [h4, if_neg ho]
  · by_cases ho : (optioned topic data options).id = ""
    · rw [(h9 ho).1]; exact padded_ne_empty _
    · rwa [h8 ho]
  · by_cases ho : (optioned topic data options).txId = ""
    · rw [(h7 ho).1]; exact padded_ne_empty _
    · rwa [h6 ho]
  · rw [h4]; split
    · exact hnow
    · assumption
  · intro hi ht he
    rw [(h9 hi).1, (h7 ht).1] at he
    have := padded_inj he
    have := (h9 hi).2.2 ht
    omega

/-- The options of the bus: the last one of a kind decides, whatever the others of its kind said. -/
theorem C65_last_option (topic : String) (data : Nat) (options : List (Message → Message)) (id tx src : String) (t : Nat) :
    let o := optioned topic data (options ++ [withID id, withTxID tx, withSource src, withOccurredAt t])
    o.id = id ∧ o.txId = tx ∧ o.source = src ∧ o.occurredAt = t := by
  simp [optioned, withID, withTxID, withSource, withOccurredAt]

/-- Not vacuous: three emissions, one of them to a topic registered in between and one with options, and what came of
them. -/
example :
    let m : String → String → Bool := fun p t => p = t || p = "*"
    let acts : List BusAct := [.change (.register "a" 1 "*"), .change (.registerTopic "t" ["a"]),
      .emit 5 { source := "src" } "t" 7, .emit 6 {} "u" 7, .change (.register "b" 2 "t"),
      .emitWith 8 {} "t" 9 [withSource "s", withTxID "x"], .emit 9 { txId := "y" } "t" 1]
    (BusAct.run m (Broker.new, 0) acts).map (Option.map (List.map (fun d => (d.handler.fn, d.ctx.txId, d.message)))) =
      [none, none, some [(1, "001", ⟨"002", "001", "t", "src", 5, 7⟩)], none, none,
       some [(1, "", ⟨"003", "x", "t", "s", 8, 9⟩), (2, "", ⟨"003", "x", "t", "s", 8, 9⟩)],
       some [(1, "y", ⟨"004", "y", "t", "", 9, 1⟩), (2, "y", ⟨"004", "y", "t", "", 9, 1⟩)]] := by
  decide +kernel

/-! ### C42: delivery in a history, and what the bus tells about itself -/

private theorem BusAct.final_bus (m : String → String → Bool) (acts : List BusAct) (s : Broker × Nat) :
    (BusAct.final m s acts).1 = (BusAct.changes acts).foldl (BusOp.apply m) s.1 := by
  induction acts generalizing s with
  | nil => rfl
  | cons a acts ih =>
    show (BusAct.final m (a.step m s).2 acts).1 = _
    rw [ih]
    cases a with
    | change op => rfl
    | emit now ctx topic data =>
      have : (BusAct.changes (.emit now ctx topic data :: acts)) = BusAct.changes acts := rfl
      rw [this]
      congr 1
      simp only [BusAct.step]
      cases s.1.send s.2 now ctx topic data <;> rfl
    | emitWith now ctx topic data options =>
      have : (BusAct.changes (.emitWith now ctx topic data options :: acts)) = BusAct.changes acts := rfl
      rw [this]
      congr 1
      simp only [BusAct.step]
      cases s.1.sendWith s.2 now ctx topic data options <;> rfl

/-- **C42, with the messages.** After any history of changes and emissions, either way of emitting fails exactly if the
topic is not registered, and otherwise delivers to exactly the handlers registered at that time whose pattern matches
the topic, each once; emissions change nothing about who is called. -/
theorem C42_delivered (m : String → String → Bool) (acts : List BusAct) (hv : BusOp.Valid [] (BusAct.changes acts))
    (now : Nat) (ctx : BusCtx) (topic : String) (data : Nat) (options : List (Message → Message)) :
    let s := BusAct.final m (Broker.new, 0) acts
    ∀ r, r = s.1.send s.2 now ctx topic data ∨ r = s.1.sendWith s.2 now ctx topic data options →
      (BusOp.known (BusAct.changes acts) topic = false → r = none) ∧
      (BusOp.known (BusAct.changes acts) topic = true → ∃ ds g, r = some (ds, g) ∧ (ds.map (·.handler)).Nodup ∧
        ∀ h, h ∈ ds.map (·.handler) ↔
          BusOp.current (BusAct.changes acts) h.key = some h ∧ m h.matcher topic = true) := by
  intro s r hr
  have hb : s.1 = _ := BusAct.final_bus m acts (Broker.new, 0)
  have key := C42_message_bus m (BusAct.changes acts) hv topic
  simp only [Broker.emit, ← hb] at key
  refine ⟨fun h => ?_, fun h => ?_⟩
  · have := key.1 h
    rcases hr with rfl | rfl <;> simp [Broker.send, Broker.sendWith, this]
  · obtain ⟨l, hl, h1, h2⟩ := key.2 h
    have : ∃ ds g, r = some (ds, g) := by
      rcases hr with rfl | rfl
      · simp [Broker.send, hl]
      · simp [Broker.sendWith, hl]
    obtain ⟨ds, g, rfl⟩ := this
    refine ⟨ds, g, rfl, ?_⟩
    have : ds.map (·.handler) = l := by
      rcases hr with hr | hr
      · obtain ⟨hs, e, c, ht, rfl, -⟩ := Broker.send_some hr.symm
        rw [hl] at ht; cases ht
        simp [Function.comp_def]
      · obtain ⟨hs, e, ht, rfl, -⟩ := Broker.sendWith_some hr.symm
        rw [hl] at ht; cases ht
        simp [Function.comp_def]
    rw [this]
    exact ⟨h1, h2⟩

/-- **C42, listings.** After any history, Topics lists each registered topic once, HandlerKeys each registered key once,
TopicHandlerKeys the keys of the handlers a message to the topic would reach, and HandlerTopicSubscriptions the topics
the handler is reached by: a key is listed for a topic exactly when the topic is listed for the key. `ts` and `ks` are
the (arbitrary) orders in which Go goes through the two maps. -/
theorem C42_listings (m : String → String → Bool) (ops : List BusOp) (hv : BusOp.Valid [] ops) (ts ks : List String)
    (hts : ts.Nodup ∧ ∀ t, t ∈ ts ↔ BusOp.known ops t = true)
    (hks : ks.Nodup ∧ ∀ k, k ∈ ks ↔ (BusOp.current ops k).isSome) :
    let b := ops.foldl (BusOp.apply m) Broker.new
    b.topicList ts = ts ∧ b.handlerKeys ks = ks ∧
    (∀ t, (b.topicHandlerKeys t).Nodup ∧ ∀ k, k ∈ b.topicHandlerKeys t ↔
      BusOp.known ops t = true ∧ ∃ h, BusOp.current ops k = some h ∧ m h.matcher t = true) ∧
    (∀ k, (b.subscriptions m ts k).Nodup) ∧
    (∀ k t, t ∈ b.subscriptions m ts k ↔ k ∈ b.topicHandlerKeys t) := by
  intro b
  have I : BusInv m ops b := bus_inv m ops hv
  have h1 : b.topicList ts = ts := by
    rw [Broker.topicList, List.filter_eq_self]
    intro t ht
    rw [I.topics]; exact (hts.2 t).mp ht
  have h2 : b.handlerKeys ks = ks := by
    rw [Broker.handlerKeys, List.filter_eq_self]
    intro k hk
    rw [I.handlers]; exact (hks.2 k).mp hk
  have h3 : ∀ t, (b.topicHandlerKeys t).Nodup ∧ ∀ k, k ∈ b.topicHandlerKeys t ↔
      BusOp.known ops t = true ∧ ∃ h, BusOp.current ops k = some h ∧ m h.matcher t = true := by
    intro t
    rw [← I.topics]
    unfold Broker.topicHandlerKeys
    cases ht : b.topics t with
    | none => simp
    | some l =>
      refine ⟨I.nodup t l ht, fun k => ?_⟩
      simp only [Option.getD_some, List.mem_map, Option.isSome_some, true_and]
      constructor
      · rintro ⟨h, hm, rfl⟩
        have := (I.mem t l ht h).mp hm
        exact ⟨h, by rw [← I.handlers]; exact this.1, this.2⟩
      · rintro ⟨h, hc, hm⟩
        rw [← I.handlers] at hc
        have hk := I.key k h hc
        exact ⟨h, (I.mem t l ht h).mpr ⟨by rw [hk]; exact hc, hm⟩, hk⟩
  refine ⟨h1, h2, h3, fun k => ?_, fun k t => ?_⟩
  · unfold Broker.subscriptions
    split
    · simp
    · rw [h1]; exact hts.1.filter _
  · rw [(h3 t).2 k]
    unfold Broker.subscriptions
    rw [h1, I.handlers]
    cases hc : BusOp.current ops k with
    | none => simp
    | some h => simp [hts.2 t]

/-- Not vacuous: handlers for the topics "t" and "u". -/
example :
    let m : String → String → Bool := fun p t => p = t || p = "*"
    let ops : List BusOp := [.registerTopic "t" [], .registerTopic "u" [], .register "a" 1 "*", .register "b" 2 "t"]
    let b := ops.foldl (BusOp.apply m) Broker.new
    b.topicList ["u", "t"] = ["u", "t"] ∧ b.handlerKeys ["b", "a"] = ["b", "a"] ∧
    b.topicHandlerKeys "t" = ["a", "b"] ∧ b.subscriptions m ["u", "t"] "a" = ["u", "t"] ∧
    b.subscriptions m ["u", "t"] "b" = ["t"] := by decide +kernel

/-- **C42, the service bus.** A bus that has been reset knows exactly the topics of the library, and nobody is called for
them until a handler is registered. -/
theorem C42_reset (m : String → String → Bool) (topic : String) :
    (Broker.reset m).emit topic =
      if topic ∈ ["topic:init.plugins", "topic:intercept.navigator", "topic:navigation.complete", "topic:options.announce",
        "topic:options.before", "topic:options.complete"] then some [] else none := by
  have h : ∀ (l : List String) (b : Broker), (∀ k, b.handlers k = none) →
      (∀ t, b.topics t = none ∨ b.topics t = some []) →
      ((b.registerTopics m (l.map (fun t => (t, [])))).topics topic =
        if topic ∈ l then some [] else b.topics topic) := by
    intro l
    induction l with
    | nil => intro b _ _; simp [Broker.registerTopics]
    | cons t l ih =>
      intro b hh ht
      simp only [Broker.registerTopics, List.map_cons, List.foldl_cons]
      have hb : (b.registerTopic m [] t).topics = fun t' => if t' = t then some [] else b.topics t' := by
        unfold Broker.registerTopic
        by_cases hs : (b.topics t).isSome
        · rw [if_pos hs]
          rcases ht t with h | h
          · rw [h] at hs; simp at hs
          · funext t'
            by_cases e : t' = t
            · subst e; simp [h]
            · simp [e]
        · rw [if_neg hs]
          simp [Broker.build]
      have := ih (b.registerTopic m [] t) (by intro k; unfold Broker.registerTopic; split <;> exact hh k)
        (by intro t'; rw [hb]; by_cases e : t' = t <;> simp [e, ht t'])
      unfold Broker.registerTopics at this
      rw [this, hb]
      by_cases e : topic = t
      · simp [e]
      · simp [e]
  have := h serviceTopics Broker.new (fun _ => rfl) (fun _ => .inl rfl)
  simpa [Broker.reset, Broker.emit, Broker.new, serviceTopics] using this

/-- **C42, several topics at once.** RegisterTopics leaves topics that are known as they are; for a new one the handlers called are those on the bus whose
matcher matches it, in the order the bus yields them. -/
theorem C42_registers (m : String → String → Bool) (b : Broker) (topics : List (String × List String)) (topic : String) :
    (b.registerTopics m topics).emit topic =
      match b.emit topic, topics.find? (fun t => t.1 = topic) with
      | some called, _ => some called
      | none, none => none
      | none, some (_, order) => some ((order.filterMap b.handlers).filter (fun h => m h.matcher topic)) := by
  unfold Broker.registerTopics
  induction topics generalizing b with
  | nil => simp only [List.foldl_nil, List.find?_nil]; cases b.emit topic <;> rfl
  | cons t ts ih =>
    rw [List.foldl_cons, ih, List.find?_cons]
    have hh : (b.registerTopic m t.2 t.1).handlers = b.handlers := by unfold Broker.registerTopic; split <;> rfl
    rw [hh]
    by_cases ht : t.1 = topic
    · subst ht
      simp only [decide_true, Broker.emit, Broker.registerTopic]
      cases hb : b.topics t.1 with
      | some l => simp [hb]
      | none => simp [Broker.build]
    · have : (b.registerTopic m t.2 t.1).emit topic = b.emit topic := by
        have ht' : topic ≠ t.1 := fun h => ht h.symm
        unfold Broker.registerTopic Broker.emit
        split <;> simp [ht']
      rw [this]
      simp [ht]

/-- Not vacuous: two topics registered on a bus with two handlers. -/
example : let m : String → String → Bool := fun p t => p = t || p = "*"
    let b := ((Broker.new.register m "a" 1 "*").register m "b" 2 "t").registerTopics m [("t", ["b", "a"]), ("u", ["a", "b"]), ("t", [])]
    (b.emit "t").map (List.map (·.key)) = some ["b", "a"] ∧ (b.emit "u").map (List.map (·.key)) = some ["a"] ∧ b.emit "v" = none := by
  decide +kernel

/-- **C42, topics taken off the bus.** After DeregisterTopics an emission for any of the topics fails, and the handlers called for
every other topic are those that were called before. -/
theorem C42_deregisters (b : Broker) (topics : List String) (topic : String) :
    (b.deregisterTopics topics).emit topic = if topic ∈ topics then none else b.emit topic := by
  unfold Broker.deregisterTopics
  induction topics generalizing b with
  | nil => simp
  | cons t ts ih =>
    rw [List.foldl_cons, ih]
    by_cases h1 : topic ∈ ts
    · simp [h1]
    · by_cases h2 : topic = t <;> simp [h1, h2, Broker.emit, Broker.deregisterTopic]

/-- Not vacuous: two of the service topics are taken off again. -/
example : let b := (Broker.reset (fun _ _ => true)).deregisterTopics ["topic:init.plugins", "topic:options.before"]
    b.emit "topic:init.plugins" = none ∧ b.emit "topic:options.before" = none ∧ b.emit "topic:options.announce" = some [] := by
  decide +kernel

example : (Broker.reset (fun _ _ => true)).emit "topic:init.plugins" = some [] ∧
    (Broker.reset (fun _ _ => true)).emit "else" = none := by decide +kernel

end Traverse
