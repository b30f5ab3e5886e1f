import Verif.Model.Output
import Verif.Props.Concurrent
/-
C66: the outputs of a concurrent session.
-/
namespace Traverse
variable {κ : Type}

/-- What holds whatever the schedule. -/
structure Flow.Ok (size : FlowSize) (sent : List Parcel) (s : Flow κ) : Prop where
  all : (s.called ++ (s.given ++ (s.hand.toList ++ (s.queue ++ s.todo)))).Perm sent
  ended : (s.log.map Prod.fst ++ s.busy).Perm s.called
  log : (s.seen ++ (s.line ++ s.hold)).Perm s.log
  workers : s.given.length + s.busy.length + s.hold.length ≤ size.workers
  outputs : s.line.length ≤ size.outputs

theorem Flow.Ok.step {size : FlowSize} {c sent h} {s t : Flow κ} (hs : s.Ok size sent) (st : Flow.Step size c h s t) :
    t.Ok size sent := by
  obtain ⟨h1, h2, h3, h4, h5⟩ := hs
  cases st with
  | returns hr hc => exact ⟨h1, h2, h3, h4, h5⟩
  | close hr ht hc => exact ⟨h1, h2, h3, h4, h5⟩
  | send hr ht hq =>
    refine ⟨?_, h2, h3, h4, h5⟩
    rw [ht] at h1; simpa using h1
  | handover hr ht hq hh =>
    refine ⟨?_, h2, h3, h4, h5⟩
    rw [ht, hq, hh] at h1; simpa [hq] using h1
  | take hq hh =>
    refine ⟨?_, h2, h3, h4, h5⟩
    rw [hq, hh] at h1; simpa using h1
  | give hh hw =>
    refine ⟨?_, h2, h3, by simp; omega, h5⟩
    rw [hh] at h1; simpa using h1
  | @begin p l r hg =>
    refine ⟨?_, ?_, h3, ?_, h5⟩
    · rw [hg] at h1
      refine (List.Perm.trans ?_ h1)
      simp only [List.append_assoc]
      apply List.Perm.append_left
      simp only [List.singleton_append, List.cons_append, List.nil_append]
      exact List.perm_middle.symm
    · rw [← List.append_assoc]
      exact h2.append_right _
    · rw [hg] at h4
      simp at h4 ⊢; omega
  | @finish p l r k e hb hr =>
    refine ⟨h1, ?_, ?_, ?_, h5⟩
    · rw [hb] at h2
      refine List.Perm.trans ?_ h2
      simp only [List.map_append, List.map_cons, List.map_nil, List.append_assoc]
      apply List.Perm.append_left
      simp only [List.singleton_append]
      exact List.perm_middle.symm
    · simp only [← List.append_assoc] at h3 ⊢
      exact h3.append_right _
    · rw [hb] at h4
      simp at h4 ⊢; omega
  | @emit o l r ho hl =>
    refine ⟨h1, h2, ?_, ?_, by simp; omega⟩
    · refine List.Perm.trans ?_ h3
      rw [ho]
      apply List.Perm.append_left
      simp only [List.append_assoc]
      apply List.Perm.append_left
      simp only [List.singleton_append]
      exact List.perm_middle.symm
    · rw [ho] at h4
      simp at h4 ⊢; omega
  | @pass o l r hc ho hl =>
    refine ⟨h1, h2, ?_, ?_, h5⟩
    · refine List.Perm.trans ?_ h3
      rw [ho, hl]
      simp only [List.append_assoc, List.nil_append]
      apply List.Perm.append_left
      simp only [List.singleton_append]
      exact List.perm_middle.symm
    · rw [ho] at h4
      simp at h4 ⊢; omega
  | @read o r hc hl =>
    refine ⟨h1, h2, ?_, h4, ?_⟩
    · rw [hl] at h3
      simpa using h3
    · rw [hl] at h5
      simp at h5; simp only; omega

theorem Flow.Ok.steps {size : FlowSize} {c sent h n} {s t : Flow κ} (hs : s.Ok size sent) (st : Flow.Steps size c h n s t) :
    t.Ok size sent := by
  induction st with
  | refl => exact hs
  | tail _ b ih => exact (ih hs).step b

theorem Launch.flow_ok (l : Launch κ) (size : FlowSize) (k : κ) : (l.flow k).Ok size l.sent :=
  ⟨by simp [Launch.flow], by simp [Launch.flow], by simp [Launch.flow], by simp [Launch.flow], by simp [Launch.flow]⟩

/-- A record of the answers that comes from the handler: some state of the client, and the answer given there. -/
theorem Flow.log_step {size : FlowSize} {c h} {s t : Flow κ} (st : Flow.Step size c h s t)
    (hs : ∀ p e, (p, e) ∈ s.log → ∃ k k', h k p = (k', .ok e)) : ∀ p e, (p, e) ∈ t.log → ∃ k k', h k p = (k', .ok e) := by
  cases st with
  | @finish p l r k e hb hr =>
    intro p' e' hm
    rcases List.mem_append.mp hm with hm | hm
    · exact hs p' e' hm
    · simp only [List.mem_singleton, Prod.mk.injEq] at hm
      obtain ⟨rfl, rfl⟩ := hm
      exact ⟨_, _, hr⟩
  | _ => exact hs

theorem Flow.log_steps {size : FlowSize} {c h n} {s t : Flow κ} (st : Flow.Steps size c h n s t) (h0 : s.log = []) :
    ∀ p e, (p, e) ∈ t.log → ∃ k k', h k p = (k', .ok e) := by
  induction st with
  | refl => rw [h0]; intro p e h; cases h
  | tail _ b ih => exact Flow.log_step b (ih h0)

/-- **C66, never twice, and only what the handler answered.** Along every schedule, whatever the sizes and whoever reads: what
the client has read are outputs of different calls of the handler, no node more often than it was sent; each carries the node
and the error the handler returned for it. At most the configured number of workers are occupied, and at most the configured
number of outputs wait in the channel. -/
theorem C66_at_most_once (l : Launch κ) (size : FlowSize) (c : Consumer) (k : κ) (n : Nat) (s : Flow κ)
    (hs : Flow.Steps size c l.handler n (l.flow k) s) :
    (∃ rest, (s.seen ++ rest).Perm s.log) ∧ (∃ rest, (s.log.map Prod.fst ++ rest).Perm s.called) ∧
    (∃ rest, (s.called ++ rest).Perm l.sent) ∧
    (∀ p e, (p, e) ∈ s.seen → ∃ k k', l.handler k p = (k', .ok e)) ∧
    s.busy.length + s.hold.length ≤ size.workers ∧ s.line.length ≤ size.outputs := by
  have ok := (l.flow_ok size k).steps hs
  refine ⟨⟨_, ok.log⟩, ⟨_, ok.ended⟩, ⟨_, ok.all⟩, fun p e hm => ?_, by have := ok.workers; omega, ok.outputs⟩
  exact Flow.log_steps hs rfl p e (ok.log.mem_iff.mp (List.mem_append_left _ hm))

/-- **C66, what is in between.** Along every schedule no more nodes wait in the queue than it was made for, at most one is in the
hand of the pool's dispatcher, and the input is closed only after everything has been sent: nothing is sent to a closed input. -/
theorem C66_bounds (l : Launch κ) (size : FlowSize) (c : Consumer) (k : κ) (n : Nat) (s : Flow κ)
    (hs : Flow.Steps size c l.handler n (l.flow k) s) :
    s.queue.length ≤ size.queue ∧ (s.closed = true → s.todo = [] ∧ s.returned = true) ∧
    (s.returned = false → s.todo = l.sent) := by
  generalize hf : l.flow k = s0 at hs
  induction hs with
  | refl => subst hf; exact ⟨by simp [Launch.flow], by simp [Launch.flow], by simp [Launch.flow]⟩
  | tail a b ih =>
    obtain ⟨h1, h2, h3⟩ := ih hf
    cases b with
    | returns hr hc => exact ⟨h1, fun h => ⟨(h2 h).1, rfl⟩, by simp⟩
    | close hr ht hc => exact ⟨h1, fun _ => ⟨ht, hr⟩, h3⟩
    | send hr ht hq =>
      refine ⟨by simp; omega, fun h => ?_, fun h => ?_⟩
      · have := (h2 h).1; rw [ht] at this; cases this
      · have h' : _ = false := h
        rw [hr] at h'; cases h'
    | handover hr ht hq hh =>
      refine ⟨h1, fun h => ?_, fun h => ?_⟩
      · have := (h2 h).1; rw [ht] at this; cases this
      · have h' : _ = false := h
        rw [hr] at h'; cases h'
    | take hq hh =>
      refine ⟨?_, h2, h3⟩
      rw [hq] at h1; simp at h1 ⊢; omega
    | _ => exact ⟨h1, h2, h3⟩

/-- Not vacuous: with room for one node in the queue, one waits there while the other is being handed over; a second one could
not be added. -/
example (a b d : Parcel) : ∃ t, Flow.Steps (κ := Nat) ⟨1, 1, 1⟩ .beside refuse 4 { todo := [a, b, d], client := 0 } t ∧
    t.queue = [b] ∧ t.hand = some a ∧ t.todo = [d] ∧ t.closed = false :=
  ⟨_, (((Flow.Steps.refl.tail (.returns rfl (by simp))).tail (.send rfl rfl (by simp))).tail (.take rfl rfl)).tail (.send rfl rfl (by simp)),
    rfl, rfl, rfl, rfl⟩

/-- **C66, exactly once.** When no work remains, the client has read exactly one output for everything that was sent: for each
node the answer of the one call of the handler for it. -/
theorem C66_exactly_once (l : Launch κ) (size : FlowSize) (c : Consumer) (k : κ) (n : Nat) (s : Flow κ)
    (hs : Flow.Steps size c l.handler n (l.flow k) s) (hd : s.Drained) :
    (s.seen.map Prod.fst).Perm l.sent ∧ s.called.Perm l.sent ∧ s.seen.Perm s.log := by
  obtain ⟨h1, h2, h3, -, -⟩ := (l.flow_ok size k).steps hs
  rw [hd.line, hd.hold] at h3
  rw [hd.busy] at h2
  rw [hd.given, hd.hand, hd.queue, hd.todo] at h1
  simp only [List.append_nil, Option.toList_none] at h1 h2 h3
  exact ⟨((h3.map _).trans h2).trans h1, h1, h3⟩

/-- **C66, no deadlock. Partial:** for a client that reads the stream on a goroutine of its own. Whatever the sizes (one
worker at least), in every state that can be reached with work remaining somebody can take a step, if the handler does not
panic. For the other clients see `C66_in_place_deadlock` and `C66_unread`. -/
theorem C66_progress_partial (l : Launch κ) (size : FlowSize) (hw : 0 < size.workers)
    (hh : ∀ k p, (l.handler k p).2 ≠ .panic) (k : κ) (n : Nat) (s : Flow κ)
    (hs : Flow.Steps size .beside l.handler n (l.flow k) s) (hd : ¬ s.Drained) :
    ∃ t, Flow.Step size .beside l.handler s t := by
  rcases hr : s.returned with _ | _
  · exact ⟨_, .returns hr (by simp)⟩
  rcases hl : s.line with _ | ⟨o, r⟩
  · rcases ho : s.hold with _ | ⟨o, r⟩
    · rcases hb : s.busy with _ | ⟨p, r⟩
      · rcases hg : s.given with _ | ⟨p, r⟩
        · rcases hn : s.hand with _ | p
          · rcases hq : s.queue with _ | ⟨p, q⟩
            · rcases ht : s.todo with _ | ⟨p, ps⟩
              · exact absurd ⟨ht, hq, hn, hg, hb, ho, hl⟩ hd
              · exact ⟨_, .handover hr ht hq hn⟩
            · exact ⟨_, .take hq hn⟩
          · exact ⟨_, .give hn (by rw [hg, hb, ho]; exact hw)⟩
        · exact ⟨_, .begin (l := []) hg⟩
      · rcases hr : l.handler s.client p with ⟨k', _ | _⟩
        · exact ⟨_, .finish (l := []) hb hr⟩
        · exact absurd (by rw [hr]) (hh s.client p)
    · exact ⟨_, .pass (l := []) (by simp) ho hl⟩
  · exact ⟨_, .read (by simp) hl⟩

/-- How much is left to do. -/
def Flow.left (s : Flow κ) : Nat :=
  7 * s.todo.length + 6 * s.queue.length + 5 * s.hand.toList.length + 4 * s.given.length + 3 * s.busy.length +
    2 * s.hold.length + s.line.length + (if s.returned then 0 else 1) + (if s.closed then 0 else 1)

theorem Flow.Step.less {size : FlowSize} {c h} {s t : Flow κ} (st : Flow.Step size c h s t) : t.left + 1 ≤ s.left := by
  cases st with
  | returns hr hc => simp [Flow.left, hr] <;> omega
  | close hr ht hc => simp [Flow.left, hc]
  | send hr ht hq => simp [Flow.left, ht]; omega
  | handover hr ht hq hh => simp [Flow.left, ht, hq, hh]; omega
  | take hq hh => simp [Flow.left, hq, hh]; omega
  | give hh hw => simp [Flow.left, hh]; omega
  | «begin» hg => simp [Flow.left, hg]; omega
  | finish hb hr => simp [Flow.left, hb]; omega
  | emit ho hl => simp [Flow.left, ho]; omega
  | pass hc ho hl => simp [Flow.left, ho]; omega
  | read hc hl => simp [Flow.left, hl]; omega

theorem Flow.Steps.less {size : FlowSize} {c h n} {s t : Flow κ} (st : Flow.Steps size c h n s t) : t.left + n ≤ s.left := by
  induction st with
  | refl => simp
  | tail _ b ih => have := b.less; omega

/-- **C66, it ends. Partial**, as `C66_progress_partial`: no schedule goes on for ever, and one that cannot be continued has
drained the pool; then the client has read one output for each node. -/
theorem C66_ends_partial (l : Launch κ) (size : FlowSize) (hw : 0 < size.workers)
    (hh : ∀ k p, (l.handler k p).2 ≠ .panic) (k : κ) (n : Nat) (s : Flow κ)
    (hs : Flow.Steps size .beside l.handler n (l.flow k) s) :
    n ≤ 7 * l.sent.length + 2 ∧
    ((¬ ∃ t, Flow.Step size .beside l.handler s t) → s.Drained ∧ (s.seen.map Prod.fst).Perm l.sent) := by
  constructor
  · have := hs.less
    simp [Flow.left, Launch.flow] at this
    omega
  · intro h
    have hd := Classical.not_not.1 (fun hd => h (C66_progress_partial l size hw hh k n s hs hd))
    exact ⟨hd, (C66_exactly_once l size .beside k n s hs hd).1⟩

/-- From everywhere the end can be reached, if the client reads on a goroutine of its own. -/
theorem C66_can_finish_partial (l : Launch κ) (size : FlowSize) (hw : 0 < size.workers)
    (hh : ∀ k p, (l.handler k p).2 ≠ .panic) (k : κ) (n : Nat) (s : Flow κ)
    (hs : Flow.Steps size .beside l.handler n (l.flow k) s) :
    ∃ m t, Flow.Steps size .beside l.handler m (l.flow k) t ∧ t.Drained := by
  generalize hl : s.left = a
  induction a using Nat.strongRecOn generalizing n s with
  | ind a ih =>
    by_cases hd : s.Drained
    · exact ⟨n, s, hs, hd⟩
    · obtain ⟨t, ht⟩ := C66_progress_partial l size hw hh k n s hs hd
      exact ih t.left (by have := ht.less; omega) (n + 1) t (hs.tail ht) rfl

/-- **C66 fails for a client that reads in place.** An output function that ranges over the stream it is given deadlocks the
session at its beginning: it is called on the navigator's goroutine before anything is navigated, the stream ends only when the
navigator is done, and nobody can take a step. The handler is never called, for any tree, size and handler. -/
theorem C66_in_place_deadlock (l : Launch κ) (size : FlowSize) (k : κ) :
    (¬ ∃ t, Flow.Step size .inPlace l.handler (l.flow k) t) ∧
    (∀ n s, Flow.Steps size .inPlace l.handler n (l.flow k) s → s = l.flow k ∧ s.called = [] ∧ s.returned = false) := by
  have h : ¬ ∃ t, Flow.Step size .inPlace l.handler (l.flow k) t := by
    rintro ⟨t, ht⟩
    cases ht with
    | returns hr hc => exact absurd (hc rfl).1 (by simp [Launch.flow])
    | close hr => exact absurd hr (by simp [Launch.flow])
    | send hr => exact absurd hr (by simp [Launch.flow])
    | handover hr => exact absurd hr (by simp [Launch.flow])
    | take hq => exact absurd hq (by simp [Launch.flow])
    | give hh => exact absurd hh (by simp [Launch.flow])
    | «begin» hg => exact absurd hg (by simp [Launch.flow])
    | finish hb => exact absurd hb (by simp [Launch.flow])
    | emit ho => exact absurd ho (by simp [Launch.flow])
    | pass _ ho => exact absurd ho (by simp [Launch.flow])
    | read _ hl => exact absurd hl (by simp [Launch.flow])
  refine ⟨h, fun n s hs => ?_⟩
  have : s = l.flow k := by
    generalize hf : l.flow k = s0 at hs
    induction hs with
    | refl => rfl
    | tail a b ih => subst hf; rw [ih rfl] at b; exact absurd ⟨_, b⟩ h
  subst this
  exact ⟨rfl, rfl, rfl⟩

theorem Flow.Step.unread {size : FlowSize} {h} {s t : Flow κ} (st : Flow.Step size .nobody h s t) (hs : s.seen = []) :
    t.seen = [] := by
  cases st <;> first | exact hs | (rename_i hc _ _; exact absurd rfl hc) | (rename_i hc _; exact absurd rfl hc)

/-- **C66 without a reader.** If nobody reads the stream, at most as many handler calls are made as there are workers and
places in the output channel; a session that has more nodes is never done, whatever the schedule (until, in the library, a
send times out). -/
theorem C66_unread (l : Launch κ) (size : FlowSize) (k : κ) (n : Nat) (s : Flow κ)
    (hs : Flow.Steps size .nobody l.handler n (l.flow k) s) :
    s.called.length ≤ size.workers + size.outputs ∧ (size.workers + size.outputs < l.sent.length → ¬ s.Drained) := by
  have ok := (l.flow_ok size k).steps hs
  have hseen : s.seen = [] := by
    generalize hf : l.flow k = s0 at hs
    induction hs with
    | refl => subst hf; rfl
    | tail a b ih => exact b.unread (ih ((l.flow_ok size k).steps (hf ▸ a)) hf)
  have h1 := ok.ended.length_eq
  have h2 := ok.log.length_eq
  rw [hseen] at h2
  simp only [List.length_append, List.length_map, List.length_nil] at h1 h2
  have h3 := ok.workers
  have h4 := ok.outputs
  have hc : s.called.length ≤ size.workers + size.outputs := by omega
  refine ⟨hc, fun hlt hd => ?_⟩
  have h5 := ok.all.length_eq
  rw [hd.given, hd.hand, hd.queue, hd.todo] at h5
  simp at h5
  omega

/-- **C66, sizes.** The output channel is as large as asked for, and as large as there are workers if no size was given; there
is none without an output function. -/
theorem C66_sizes (o : Options κ) :
    o.afterwards.flow = (if o.concurrency.output.on.isSome then
      some ⟨o.concurrency.now, if o.concurrency.inputSize = 0 then o.concurrency.now else o.concurrency.inputSize,
        if o.concurrency.output.size = 0 then o.concurrency.now else o.concurrency.output.size⟩ else none) := by
  simp only [Options.flow, Options.afterwards]
  by_cases q1 : o.concurrency.inputSize = 0 <;> by_cases q2 : o.concurrency.output.on.isSome = true <;>
    by_cases q3 : o.concurrency.output.size = 0 <;> simp [q1, q2, q3]

/-- Not vacuous: the demo session, whose handler refuses every node, with two workers and room for one output, has a schedule to
its end, and then the client has read ten outputs. -/
example : ∃ m t, Flow.Steps ⟨2, 0, 1⟩ .beside Demo.launch.handler m (Demo.launch.flow 0) t ∧ t.Drained ∧ t.seen.length = 10 := by
  obtain ⟨m, t, hs, hd⟩ := C66_can_finish_partial Demo.launch ⟨2, 0, 1⟩ (by decide)
    (fun _ _ => by simp [Demo.launch, runPrime, Built.launch, refuse]) 0 0 _ .refl
  refine ⟨m, t, hs, hd, ?_⟩
  have := (C66_exactly_once _ _ _ _ _ _ hs hd).1.length_eq
  rw [List.length_map] at this
  rw [this]
  decide +kernel

/-- The output tells what the handler answered. -/
example (a : Parcel) (ha : a.node.isDir = true) :
    ∃ t, Flow.Steps (κ := Nat) ⟨1, 0, 1⟩ .beside refuse 7 { todo := [a], client := 0 } t ∧ t.Drained ∧
      t.seen = [(a, some .skipAll)] := by
  have hr : refuse 0 a = (1, .ok (some .skipAll)) := by simp [refuse, ha]
  exact ⟨_, ((((((Flow.Steps.refl.tail (.returns rfl (by simp))).tail (.handover rfl rfl rfl rfl)).tail (.give rfl (by simp))).tail
    (.begin (l := []) rfl)).tail (.finish (l := []) rfl hr)).tail (.emit (l := []) rfl (by simp))).tail (.read (by simp) rfl),
    ⟨rfl, rfl, rfl, rfl, rfl, rfl, rfl⟩, rfl⟩

end Traverse
