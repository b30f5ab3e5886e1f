import Verif.Model.Broker
/-
C42: the message bus.
-/
namespace Traverse

/-- What a user can do to the bus. `order` is the (arbitrary) order in which Go goes through the registered keys. -/
inductive BusOp where
  | register (key : String) (fn : Nat) (matcher : String)
  | deregister (key : String)
  | registerTopic (topic : String) (order : List String)
  | deregisterTopic (topic : String)

def BusOp.apply (m : String → String → Bool) (b : Broker) : BusOp → Broker
  | .register k f mt => b.register m k f mt
  | .deregister k => b.deregister m k
  | .registerTopic t o => b.registerTopic m o t
  | .deregisterTopic t => b.deregisterTopic t

/-- Specification: the handler a key stands for after a history. -/
def BusOp.current (ops : List BusOp) (key : String) : Option BusHandler :=
  ops.foldl (fun cur op => match op with
    | .register k f mt => if k = key then some ⟨k, f, mt⟩ else cur
    | .deregister k => if k = key then none else cur
    | _ => cur) none

/-- Specification: whether a topic is registered after a history. -/
def BusOp.known (ops : List BusOp) (topic : String) : Bool :=
  ops.foldl (fun cur op => match op with
    | .registerTopic t _ => if t = topic then true else cur
    | .deregisterTopic t => if t = topic then false else cur
    | _ => cur) false

/-- Every order of iteration in the history enumerates the keys registered at that point, each once: which of these
orders it is is unspecified. -/
def BusOp.Valid (done : List BusOp) : List BusOp → Prop
  | [] => True
  | op :: rest => (∀ t o, op = .registerTopic t o → o.Nodup ∧ ∀ k, k ∈ o ↔ (current done k).isSome) ∧
      Valid (done ++ [op]) rest

/-! ### Proof -/

/-- Swapping the last element in and shortening drops exactly the element. -/
private theorem dropHandler_split (key : String) (l : List BusHandler) (hn : (l.map (·.key)).Nodup) :
    (((dropHandler key l).map (·.key)).Nodup) ∧ ∀ h, h ∈ dropHandler key l ↔ h ∈ l ∧ h.key ≠ key := by
  unfold dropHandler
  cases hf : l.findIdx? (fun h => h.key = key) with
  | none =>
    rw [List.findIdx?_eq_none_iff] at hf
    refine ⟨hn, fun h => ⟨fun hm => ⟨hm, ?_⟩, fun hm => hm.1⟩⟩
    simpa using hf h hm
  | some i =>
    rw [List.findIdx?_eq_some_iff_getElem] at hf
    obtain ⟨hi, hk, -⟩ := hf
    simp only [decide_eq_true_eq] at hk
    obtain ⟨pre, x, post, hl, hp, hkx⟩ : ∃ pre x post, l = pre ++ x :: post ∧ pre.length = i ∧ x.key = key :=
      ⟨l.take i, l[i], l.drop (i + 1), by simp, by simp; omega, hk⟩
    subst hl; subst hp
    clear hi hk
    have hsw : (match (pre ++ x :: post).getLast? with
        | none => pre ++ x :: post
        | some z => ((pre ++ x :: post).set pre.length z).dropLast).Perm (pre ++ post) := by
      rcases List.eq_nil_or_concat post with rfl | ⟨post', z, rfl⟩
      · simp
      · have : (pre ++ x :: (post' ++ [z])).getLast? = some z := by
          rw [show pre ++ x :: (post' ++ [z]) = (pre ++ x :: post') ++ [z] by simp, List.getLast?_concat]
        rw [List.concat_eq_append, this]
        simp only [List.set_append, Nat.lt_irrefl, if_false, Nat.sub_self, List.set_cons_zero]
        rw [show pre ++ z :: (post' ++ [z]) = (pre ++ z :: post') ++ [z] by simp, List.dropLast_concat]
        refine List.Perm.append_left pre ?_
        exact (List.perm_append_singleton z post').symm
    rw [List.map_append, List.map_cons, List.nodup_append] at hn
    obtain ⟨n1, n2, n3⟩ := hn
    rw [List.nodup_cons] at n2
    suffices hg : ∀ l' : List BusHandler, l'.Perm (pre ++ post) → (l'.map (·.key)).Nodup ∧
        ∀ h, h ∈ l' ↔ h ∈ pre ++ x :: post ∧ h.key ≠ key from hg _ hsw
    clear hsw
    intro l' hsw
    refine ⟨?_, fun h => ?_⟩
    · rw [(hsw.map _).nodup_iff, List.map_append, List.nodup_append]
      exact ⟨n1, n2.2, fun a ha b hb => n3 a ha b (by simp [hb])⟩
    · rw [hsw.mem_iff]
      simp only [List.mem_append, List.mem_cons]
      constructor
      · rintro (hm | hm)
        · exact ⟨.inl hm, fun e => n3 h.key (List.mem_map_of_mem hm) x.key (by simp) (by rw [e, hkx])⟩
        · exact ⟨.inr (.inr hm), fun e => n2.1 (by rw [hkx, ← e]; exact List.mem_map_of_mem hm)⟩
      · rintro ⟨hm | rfl | hm, hne⟩
        · exact .inl hm
        · exact absurd hkx hne
        · exact .inr hm

/-- What holds of the bus after a history. -/
structure BusInv (m : String → String → Bool) (done : List BusOp) (b : Broker) : Prop where
  handlers : ∀ k, b.handlers k = BusOp.current done k
  key : ∀ k h, b.handlers k = some h → h.key = k
  topics : ∀ t, (b.topics t).isSome = BusOp.known done t
  nodup : ∀ t l, b.topics t = some l → (l.map (·.key)).Nodup
  mem : ∀ t l, b.topics t = some l → ∀ h, h ∈ l ↔ b.handlers h.key = some h ∧ m h.matcher t = true

theorem current_append (done : List BusOp) (op : BusOp) (key : String) :
    BusOp.current (done ++ [op]) key = (match op with
    | .register k f mt => if k = key then some ⟨k, f, mt⟩ else BusOp.current done key
    | .deregister k => if k = key then none else BusOp.current done key
    | _ => BusOp.current done key) := by
  simp [BusOp.current, List.foldl_append]

theorem known_append (done : List BusOp) (op : BusOp) (topic : String) :
    BusOp.known (done ++ [op]) topic = (match op with
    | .registerTopic t _ => if t = topic then true else BusOp.known done topic
    | .deregisterTopic t => if t = topic then false else BusOp.known done topic
    | _ => BusOp.known done topic) := by
  simp [BusOp.known, List.foldl_append]

private theorem BusInv.deregister {m done b} (I : BusInv m done b) (k : String) :
    BusInv m (done ++ [.deregister k]) (b.deregister m k) := by
  have hcur := fun key => current_append done (.deregister k) key
  have hkn : ∀ t, BusOp.known (done ++ [.deregister k]) t = BusOp.known done t := fun t => known_append _ _ t
  simp only at hcur
  unfold Broker.deregister
  cases hk : b.handlers k with
  | none =>
    refine ⟨fun k' => ?_, I.key, fun t => by rw [hkn]; exact I.topics t, I.nodup, I.mem⟩
    simp only [Option.isSome_none, Bool.false_eq_true, if_false]
    rw [hcur]
    by_cases h : k = k'
    · subst h; simpa using hk
    · simp [h, I.handlers]
  | some h0 =>
    simp only [Option.isSome_some, if_true]
    refine ⟨fun k' => ?_, fun k' h => ?_, fun t => ?_, fun t l => ?_, fun t l => ?_⟩
    · rw [hcur]
      by_cases h : k = k'
      · subst h; simp
      · simp [h, Ne.symm h, I.handlers]
    · simp only; split
      · intro h; cases h
      · exact I.key k' h
    · rw [hkn, ← I.topics t]
      simp only; split <;> simp
    · simp only; split
      · intro h
        cases ht : b.topics t with
        | none => rw [ht] at h; cases h
        | some l0 =>
          rw [ht] at h; cases h
          exact (dropHandler_split k l0 (I.nodup t l0 ht)).1
      · exact I.nodup t l
    · simp only; split
      · rename_i hs
        intro h x
        cases ht : b.topics t with
        | none => rw [ht] at h; cases h
        | some l0 =>
          rw [ht] at h; cases h
          rw [(dropHandler_split k l0 (I.nodup t l0 ht)).2, I.mem t l0 ht]
          by_cases hx : x.key = k
          · simp [hx]
          · simp [hx]
      · rename_i hs
        intro h x
        rw [I.mem t l h]
        by_cases hx : x.key = k
        · simp only [hx, if_true, hk]
          refine ⟨fun ⟨h1, h2⟩ => absurd ?_ hs, fun ⟨h1, _⟩ => by cases h1⟩
          simp [Broker.subscribed, hk, h, Option.some.inj h1, h2]
        · simp [hx]

theorem BusInv.step {m done b} (I : BusInv m done b) (op : BusOp)
    (hv : ∀ t o, op = .registerTopic t o → o.Nodup ∧ ∀ k, k ∈ o ↔ (BusOp.current done k).isSome) :
    BusInv m (done ++ [op]) (op.apply m b) := by
  cases op with
  | deregister k => exact I.deregister k
  | deregisterTopic t =>
    have hcur := fun key => current_append done (.deregisterTopic t) key
    have hkn := fun t' => known_append done (.deregisterTopic t) t'
    simp only at hcur hkn
    refine ⟨fun k => by rw [hcur]; exact I.handlers k, I.key, fun t' => ?_, fun t' l => ?_, fun t' l => ?_⟩
    · rw [hkn]
      by_cases h : t = t'
      · subst h; simp [BusOp.apply, Broker.deregisterTopic]
      · simp [BusOp.apply, Broker.deregisterTopic, h, Ne.symm h, I.topics]
    · simp only [BusOp.apply, Broker.deregisterTopic]
      split
      · intro h; cases h
      · exact I.nodup t' l
    · simp only [BusOp.apply, Broker.deregisterTopic]
      split
      · intro h; cases h
      · exact I.mem t' l
  | registerTopic t o =>
    have hcur := fun key => current_append done (.registerTopic t o) key
    have hkn := fun t' => known_append done (.registerTopic t o) t'
    simp only at hcur hkn
    obtain ⟨ho1, ho2⟩ := hv t o rfl
    simp only [BusOp.apply, Broker.registerTopic]
    by_cases hs : (b.topics t).isSome
    · simp only [hs, if_true]
      refine ⟨fun k => by rw [hcur]; exact I.handlers k, I.key, fun t' => ?_, I.nodup, I.mem⟩
      rw [hkn]
      by_cases h : t = t'
      · subst h; simp [hs]
      · simp [h, I.topics]
    · rw [if_neg hs]
      refine ⟨fun k => by rw [hcur]; exact I.handlers k, I.key, fun t' => ?_, fun t' l => ?_, fun t' l => ?_⟩
      · rw [hkn]
        by_cases h : t = t'
        · subst h; simp
        · simp [h, Ne.symm h, I.topics]
      · simp only; split
        · intro h
          cases h
          refine List.Nodup.sublist ((List.filter_sublist).map _) ?_
          suffices hh : ∀ o : List String, o.Nodup → ((o.filterMap b.handlers).map (·.key)).Nodup ∧
              ∀ x ∈ o.filterMap b.handlers, x.key ∈ o from (hh o ho1).1
          intro o
          induction o with
          | nil => intro _; simp
          | cons k o ih =>
            intro hn
            rw [List.nodup_cons] at hn
            have := ih hn.2
            cases hk : b.handlers k with
            | none =>
              rw [List.filterMap_cons_none hk]
              exact ⟨this.1, fun x hx => List.mem_cons_of_mem _ (this.2 x hx)⟩
            | some h =>
              rw [List.filterMap_cons_some hk, List.map_cons, List.nodup_cons]
              have hkk := I.key k h hk
              refine ⟨⟨fun hm => ?_, this.1⟩, ?_⟩
              · obtain ⟨x, hx1, hx2⟩ := List.mem_map.mp hm
                exact hn.1 (by rw [← hkk, ← hx2]; exact this.2 x hx1)
              · intro x hx
                rcases List.mem_cons.mp hx with rfl | hx
                · rw [hkk]; simp
                · exact List.mem_cons_of_mem _ (this.2 x hx)
        · exact I.nodup t' l
      · simp only; split
        · rename_i ht
          intro h
          cases h
          subst ht
          intro x
          simp only [Broker.build, List.mem_filter, List.mem_filterMap]
          constructor
          · rintro ⟨⟨k, hk1, hk2⟩, hm⟩
            rw [I.key k x hk2]
            exact ⟨hk2, hm⟩
          · rintro ⟨h1, h2⟩
            refine ⟨⟨x.key, ?_, h1⟩, h2⟩
            rw [ho2, ← I.handlers, h1]; rfl
        · exact I.mem t' l
  | register k f mt =>
    have hcur := fun key => current_append done (.register k f mt) key
    have hkn := fun t' => known_append done (.register k f mt) t'
    simp only at hcur hkn
    have J := I.deregister k
    have hd := fun key => current_append done (.deregister k) key
    have hdk := fun t' => known_append done (.deregister k) t'
    simp only at hd hdk
    simp only [BusOp.apply, Broker.register]
    generalize b.deregister m k = b' at J
    have hnone : b'.handlers k = none := by rw [J.handlers, hd]; simp
    refine ⟨fun k' => ?_, fun k' h => ?_, fun t => ?_, fun t l => ?_, fun t l => ?_⟩
    · rw [hcur]
      by_cases h : k = k'
      · subst h; simp
      · have := J.handlers k'
        rw [hd] at this
        simp only [h, if_false] at this
        simp [h, Ne.symm h, this]
    · simp only; split
      · rename_i hk'; intro h; cases h; exact hk'.symm
      · exact J.key k' h
    · rw [hkn, ← hdk, ← J.topics]
      simp only; split <;> simp
    · simp only; split
      · intro h
        cases ht : b'.topics t with
        | none => rw [ht] at h; cases h
        | some l0 =>
          rw [ht] at h; cases h
          rw [List.map_append, List.nodup_append]
          refine ⟨J.nodup t l0 ht, by simp, ?_⟩
          intro a ha c hc e
          obtain ⟨x, hx1, rfl⟩ := List.mem_map.mp ha
          have h1 := ((J.mem t l0 ht x).mp hx1).1
          simp only [List.map_cons, List.map_nil, List.mem_singleton] at hc
          rw [e, hc, hnone] at h1
          cases h1
      · exact J.nodup t l
    · simp only; split
      · rename_i hs
        intro h x
        cases ht : b'.topics t with
        | none => rw [ht] at h; cases h
        | some l0 =>
          rw [ht] at h; cases h
          have hm : m mt t = true := by
            simp only [Broker.subscribed, if_true, Bool.and_eq_true] at hs
            exact hs.2
          rw [List.mem_append, List.mem_singleton, J.mem t l0 ht]
          by_cases hx : x.key = k
          · simp only [hx, hnone, if_true, Option.some.injEq]
            constructor
            · rintro (⟨h1, _⟩ | rfl)
              · cases h1
              · exact ⟨rfl, hm⟩
            · rintro ⟨rfl, _⟩; exact .inr rfl
          · simp only [hx, if_false]
            refine ⟨?_, .inl⟩
            rintro (h | rfl)
            · exact h
            · exact absurd rfl hx
      · rename_i hs
        intro h x
        rw [J.mem t l h]
        by_cases hx : x.key = k
        · simp only [hx, hnone, if_true, Option.some.injEq]
          refine ⟨fun ⟨h1, _⟩ => by (cases h1), ?_⟩
          rintro ⟨rfl, h2⟩
          refine absurd ?_ hs
          simp only [Broker.subscribed, if_true, Bool.and_eq_true]
          exact ⟨by rw [h]; rfl, h2⟩
        · simp [hx]

theorem bus_inv (m : String → String → Bool) (ops : List BusOp) (hv : BusOp.Valid [] ops) :
    BusInv m ops (ops.foldl (BusOp.apply m) Broker.new) := by
  suffices h : ∀ ops done b, BusOp.Valid done ops → BusInv m done b →
      BusInv m (done ++ ops) (ops.foldl (BusOp.apply m) b) by
    refine h ops [] _ hv ⟨fun _ => rfl, ?_, fun _ => rfl, ?_, ?_⟩ <;> intro _ _ h <;> cases h
  intro ops
  induction ops with
  | nil => intro done b _ I; simpa using I
  | cons op ops ih =>
    intro done b hv I
    have := ih (done ++ [op]) _ hv.2 (I.step op hv.1)
    rw [List.append_assoc] at this
    exact this

/-- **C42.** After any history of registrations and deregistrations of handlers and topics, in any order, emitting to a
topic that is not registered is an error and calls nobody; emitting to a registered one calls exactly the handlers that
are currently registered (the latest under each key) and whose pattern matches the topic, each exactly once. -/
theorem C42_message_bus (m : String → String → Bool) (ops : List BusOp) (hv : BusOp.Valid [] ops) (topic : String) :
    let called := (ops.foldl (BusOp.apply m) Broker.new).emit topic
    (BusOp.known ops topic = false → called = none) ∧
    (BusOp.known ops topic = true → ∃ l, called = some l ∧ l.Nodup ∧
      ∀ h, h ∈ l ↔ BusOp.current ops h.key = some h ∧ m h.matcher topic = true) := by
  have I := bus_inv m ops hv
  simp only [Broker.emit]
  generalize ops.foldl (BusOp.apply m) Broker.new = b at I
  refine ⟨fun h => ?_, fun h => ?_⟩
  · rw [← I.topics] at h
    simpa using h
  · rw [← I.topics] at h
    obtain ⟨l, hl⟩ := Option.isSome_iff_exists.mp h
    refine ⟨l, hl, List.Pairwise.of_map _ (fun a b h e => h (by rw [e])) (I.nodup topic l hl), fun x => ?_⟩
    rw [I.mem topic l hl, I.handlers]

/-- Not vacuous: handlers before and after the topic, one replaced, one that does not match, one removed. -/
example :
    let m : String → String → Bool := fun p t => p = t || p = "*"
    let ops : List BusOp := [.register "a" 1 "*", .register "b" 2 "t", .registerTopic "t" ["b", "a"],
      .register "c" 3 "u", .register "a" 4 "t", .register "d" 5 "*", .deregister "b", .registerTopic "u" ["d", "c", "a"]]
    BusOp.Valid [] ops ∧
    ((ops.foldl (BusOp.apply m) Broker.new).emit "t").map (·.map (·.fn)) = some [5, 4] ∧
    ((ops.foldl (BusOp.apply m) Broker.new).emit "u").map (·.map (·.fn)) = some [5, 3] ∧
    (ops.foldl (BusOp.apply m) Broker.new).emit "v" = none := by
  refine ⟨?_, by decide +kernel, by decide +kernel, by decide +kernel⟩
  have key : ∀ (ops : List BusOp) (l : List String), (∀ k, k ∉ l → BusOp.current ops k = none) →
      (∀ k, k ∈ l → (BusOp.current ops k).isSome = true) → ∀ k, k ∈ l ↔ (BusOp.current ops k).isSome = true := by
    intro ops l h1 h2 k
    by_cases h : k ∈ l
    · simp [h, h2 k h]
    · simp [h, h1 k h]
  simp only [BusOp.Valid, List.nil_append, List.cons_append, and_true]
  refine ⟨?_, ?_, ?_, ?_, ?_, ?_, ?_, ?_⟩ <;> intro t o h <;> cases h
  all_goals
    refine ⟨by decide, key _ _ ?_ (by decide +kernel)⟩
    intro k hk
    simp only [List.mem_cons, List.not_mem_nil, or_false, not_or] at hk
    simp only [eq_comm (a := k)] at hk
    simp [BusOp.current, hk]

end Traverse
