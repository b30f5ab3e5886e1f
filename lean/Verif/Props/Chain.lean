import Verif.Proofs.Chain2
import Verif.Demo.Chain
/-
C34: order of the decorators. C35: short circuit.
-/
namespace Traverse
variable {κ : Type}

/-! ### C34 -/

/-- What the chain did for each node the navigator presented, in order: the decorators that ran. -/
structure Runs (w : World κ) (log : List Ev) (runs : List (Node × List Role)) : Prop where
  nodes : runs.map Prod.fst = invoked log
  steps : w.steps = runs.flatMap (fun x => x.2.map (fun r => (r, x.1)))
  called : w.called = (runs.filter (fun x => decide (Role.anchor ∈ x.2))).map Prod.fst

structure RunsInv (S : Setup) (s : St (World κ)) : Prop where
  guard : ∃ fw, GuardOK S fw s.ext.guard
  runs : ∃ runs, Runs s.ext s.log runs ∧ ∀ x ∈ runs, x.2 ≠ [] ∧ ∃ fw, x.2 <+: S.roles fw

theorem RunsInv.same {S : Setup} {s s' : St (World κ)} (h : RunsInv S s) (hg : s'.ext.guard = s.ext.guard)
    (hst : s'.ext.steps = s.ext.steps) (hh : s'.ext.hits = s.ext.hits) (hl : invoked s'.log = invoked s.log) :
    RunsInv S s' := by
  obtain ⟨runs, hr, hx⟩ := h.runs
  refine ⟨by rw [hg]; exact h.guard, runs, ⟨?_, ?_, ?_⟩, hx⟩
  · rw [hl]; exact hr.nodes
  · rw [hst]; exact hr.steps
  · have := hr.called; unfold World.called at this ⊢; rw [hh]; exact this

theorem runsInv_session (S : Setup) (C : Client κ) (x : κ) (carried : Metrics) (target pre : Path) (fs : FS) :
    RunsInv S (S.session C x carried target pre fs).2 := by
  refine traverse_inv (Inv := RunsInv S) ⟨?_, ?_, ?_, ?_, ?_⟩ S.nav _ [] pre _ ?_
  · intro s p d h
    exact h.same (by simp [St.doDescend, Setup.env]) (by simp [St.doDescend, Setup.env])
      (by simp [St.doDescend, Setup.env]) (by simp [St.doDescend, invoked, calls])
  · intro s p d h
    exact h.same (by simp [St.doAscend, Setup.env]) (by simp [St.doAscend, Setup.env])
      (by simp [St.doAscend, Setup.env]) (by simp [St.doAscend, invoked, calls])
  · intro s n h
    obtain ⟨fw, hg⟩ := h.guard
    obtain ⟨runs, hr, hx⟩ := h.runs
    have hb := invoke_big (C := C) (target := target) hg n
    obtain ⟨ran, h1, h2, h3, h4, _, fw', _, h6⟩ := big_facts S C target fw s.ext.touched n hg.touched
    have hext : (s.doInvoke (S.env C (pre ++ [fs.name]) target) n).2.ext = (S.big C target fw s.ext.touched n).1 := by
      simp only [St.doInvoke, Setup.env]; rw [hb]
    refine ⟨⟨fw', by rw [hext]; exact h6⟩, runs ++ [(n, ran)], ⟨?_, ?_, ?_⟩, ?_⟩
    · have : invoked (s.doInvoke (S.env C (pre ++ [fs.name]) target) n).2.log = invoked s.log ++ [n] := by
        simp [St.doInvoke, invoked, calls]
      rw [this, List.map_append, hr.nodes]; rfl
    · rw [hext, h3]
      simp [World.touched, hr.steps]
    · rw [hext, h4]
      have : s.ext.touched.called = s.ext.called := rfl
      rw [this, hr.called, List.filter_append, List.map_append]
      by_cases ha : Role.anchor ∈ ran <;> simp [ha]
    · intro x hxm
      rcases List.mem_append.1 hxm with hxm | hxm
      · exact hx x hxm
      · simp only [List.mem_singleton] at hxm; subst hxm; exact ⟨h2, fw, h1⟩
  · intro s n re h
    exact h.same rfl rfl rfl (by simp [St.doAsk, invoked, calls])
  · intro s n h
    exact h.same rfl rfl rfl (by simp [St.doRescue, invoked, calls])
  · exact ⟨⟨true, guard_ok S⟩, [], ⟨rfl, rfl, rfl⟩, by simp⟩

theorem roles_documented {S : Setup} (h : S.resume ≠ some .fastward) (fw : Bool) :
    S.roles fw = documentedOrder.filter S.wants := by
  unfold Setup.roles actualOrder documentedOrder
  have : S.wants .fastward = false := by simp [Setup.wants, h]
  simp [List.filter_cons, this]

/-- C34, for every session that is not a fastward resume. For each node the navigator presents, the decorators that run
are an initial part of the documented order restricted to the active ones, the handler being last; the handler is called
exactly for the nodes for which the whole chain ran. (What is missing is the fastward resume, where the order is another
one, see `C34_fastward_is_last`.) -/
theorem C34_chain_order_partial (S : Setup) (hS : S.resume ≠ some .fastward) (C : Client κ) (x : κ) (carried : Metrics)
    (target pre : Path) (fs : FS) :
    let r := S.session C x carried target pre fs
    ∃ runs, Runs r.2.ext r.2.log runs ∧
      ∀ y ∈ runs, y.2 ≠ [] ∧ y.2 <+: documentedOrder.filter S.wants := by
  obtain ⟨runs, h, hx⟩ := (runsInv_session S C x carried target pre fs).runs
  refine ⟨runs, h, fun y hy => ?_⟩
  obtain ⟨h0, fw, h1⟩ := hx y hy
  exact ⟨h0, by rw [← roles_documented hS fw]; exact h1⟩

/-- The decorators wanted: the nanny only without a filter. -/
theorem C34_nanny_only_without_filter (S : Setup) (h : S.wants .nanny = true) : S.wants .clientFilter = false := by
  simp only [Setup.wants, Bool.and_eq_true, Option.isNone_iff_eq_none] at h ⊢
  simp [h.1.2, h.2]

/-- The documented order has every decorator once and the handler last. -/
theorem C34_once_handler_last (S : Setup) : (documentedOrder.filter S.wants).Nodup ∧
    (documentedOrder.filter S.wants).getLast? = some .anchor := by
  refine ⟨List.Nodup.sublist List.filter_sublist (by decide), ?_⟩
  have : documentedOrder.filter S.wants =
      ([Role.fastward, .hibernate, .nanny, .clientFilter, .sampler].filter S.wants) ++ [.anchor] := by
    have e : documentedOrder = [Role.fastward, .hibernate, .nanny, .clientFilter, .sampler] ++ [.anchor] := rfl
    rw [e, List.filter_append]
    rfl
  rw [this]; simp

/-- A fastward resume of a session with hibernation, started in the middle of the demo tree. -/
def Demo.fastwardSleepy : Setup := { Demo.sleepy .universal with resume := some .fastward }

/-- C34 is false for a fastward resume: hibernation runs first, the fastward link last. Here "c" (where hibernation
wakes) is the first node that gets past hibernation, and only then the fastward link is asked. -/
theorem C34_fastward_is_last :
    let r := Demo.fastwardSleepy.session (Demo.client Demo.quiet) () (fun _ => none) ["r", "c"] [] Demo.fs
    (r.2.ext.steps.filter (fun s => s.2.path == ["r", "c"])).map Prod.fst = [.hibernate, .fastward, .anchor] ∧
    (r.2.ext.steps.filter (fun s => s.2.path == ["r"])).map Prod.fst = [.hibernate] ∧
    documentedOrder.filter Demo.fastwardSleepy.wants = [.fastward, .hibernate, .anchor] := by
  decide +kernel

/-- For every session, fastward resumes included: the order is the documented one with fastward moved to the end. -/
theorem C34_actual_order (S : Setup) (C : Client κ) (x : κ) (carried : Metrics) (target pre : Path) (fs : FS) :
    let r := S.session C x carried target pre fs
    ∃ runs, Runs r.2.ext r.2.log runs ∧ ∀ y ∈ runs, y.2 ≠ [] ∧
      (y.2 <+: [Role.hibernate, .nanny, .clientFilter, .sampler, .fastward, .anchor].filter S.wants ∨
       y.2 <+: [Role.hibernate, .nanny, .clientFilter, .sampler, .anchor].filter S.wants) := by
  obtain ⟨runs, h, hx⟩ := (runsInv_session S C x carried target pre fs).runs
  refine ⟨runs, h, fun y hy => ?_⟩
  obtain ⟨h0, fw, h1⟩ := hx y hy
  refine ⟨h0, ?_⟩
  cases fw
  · right
    have : S.roles false = [Role.hibernate, .nanny, .clientFilter, .sampler, .anchor].filter S.wants := by
      unfold Setup.roles actualOrder
      simp [List.filter_cons]
    rwa [this] at h1
  · left
    have : S.roles true = [Role.hibernate, .nanny, .clientFilter, .sampler, .fastward, .anchor].filter S.wants := by
      unfold Setup.roles actualOrder
      simp
    rwa [this] at h1

/-- Not vacuous: hibernation, filter and sampler together, some nodes stopped by hibernation, some by the filter. -/
example :
    let S : Setup := { Demo.sleepy .universal with
      filter := { primary := some (.node fun n => n.name != "y") }, sampling := true }
    let r := S.session (Demo.client Demo.quiet) () (fun _ => none) [] [] Demo.fs
    documentedOrder.filter S.wants = [.hibernate, .clientFilter, .sampler, .anchor] ∧
    r.2.ext.called.map (·.path) = [["r", "c"], ["r", "c", "w"], ["r", "a"], ["r", "a", "b"], ["r", "a", "b", "z"]] ∧
    (invoked r.2.log).length = 10 ∧ r.2.ext.steps.length = 26 := by
  decide +kernel

/-! ### C35 -/

/-- The links of these roles all ran and let the node pass, taking `(w, p)` to `(w', p')`. -/
inductive Passed {ω : Type} (impl : ω → Role → Option (Link ω)) : List Role → ω → Parcel → ω → Parcel → Prop
  | nil (w p) : Passed impl [] w p w p
  | cons {r rs w p l w1 p1 w2 p2} (hl : impl w r = some l) (hp : l w p = (w1, p1, .go true none))
      (h : Passed impl rs w1 p1 w2 p2) : Passed impl (r :: rs) w p w2 p2

/-- C35. Whatever the links do: if all links before `r` let the node pass, and `r` declines it (`next = false`) or fails,
then nothing behind `r` has any effect — the resulting state and node are those `r` left, the roles that ran end with
`r` — and the navigator sees exactly `r`'s error, nil included. A panic of `r` likewise stops the chain and is seen as
such. -/
theorem C35_short_circuit {ω : Type} (impl : ω → Role → Option (Link ω)) (before : List Role) (r : Role)
    (behind : List Role) (w : ω) (p : Parcel) (w1 : ω) (p1 : Parcel) (w2 : ω) (p2 : Parcel) (l : Link ω)
    (hb : Passed impl before w p w1 p1) (hl : impl w1 r = some l) :
    (∀ next e, (next = false ∨ e ≠ none) → l w1 p1 = (w2, p2, .go next e) →
      iterate impl (before ++ r :: behind) w p = (w2, p2, .ok e, before ++ [r])) ∧
    (l w1 p1 = (w2, p2, .panic) →
      iterate impl (before ++ r :: behind) w p = (w2, p2, .panic, before ++ [r])) := by
  induction hb with
  | nil w p =>
    constructor
    · intro next e he ho
      rw [List.nil_append, iterate_one hl, ho]
      have : Turn.goesOn (.go next e) = false := by
        rcases he with rfl | he
        · rfl
        · cases next
          · rfl
          · cases e with
            | none => exact absurd rfl he
            | some _ => rfl
      simp [this, Turn.reply]
    · intro ho
      rw [List.nil_append, iterate_one hl, ho]
      simp [Turn.goesOn, Turn.reply]
  | cons hl' hp _ ih =>
    have ih := ih hl
    constructor
    · intro next e he ho
      rw [List.cons_append, iterate_one hl', hp]
      simp [Turn.goesOn, ih.1 next e he ho]
    · intro ho
      rw [List.cons_append, iterate_one hl', hp]
      simp [Turn.goesOn, ih.2 ho]

/-- And if every link lets it pass, all of them run and the navigator sees nil. -/
theorem C35_all_run {ω : Type} (impl : ω → Role → Option (Link ω)) (L : List Role) (w : ω) (p : Parcel) (w1 : ω)
    (p1 : Parcel) (h : Passed impl L w p w1 p1) : iterate impl L w p = (w1, p1, .ok none, L) := by
  induction h with
  | nil => rfl
  | cons hl hp _ ih =>
    rw [iterate_one hl, hp]
    simp [Turn.goesOn, ih]

/-- Not vacuous: two links, the second failing; the handler behind them does not run. -/
example :
    let impl : Nat → Role → Option (Link Nat) := fun _ r => match r with
      | .hibernate => some fun w p => (w + 1, p, .go true none)
      | .clientFilter => some fun w p => (w + 10, p, .go true (some (.code 7)))
      | _ => some fun w p => (w + 100, p, .go false none)
    ∀ p, (iterate impl ([.hibernate] ++ .clientFilter :: [.sampler, .anchor]) 0 p) =
      (11, p, .ok (some (.code 7)), [.hibernate, .clientFilter]) := by
  intro impl p
  refine (C35_short_circuit impl [.hibernate] .clientFilter [.sampler, .anchor] 0 p 1 p 11 p _ ?_ rfl).1
    true (some (.code 7)) (.inr (by simp)) rfl
  exact .cons rfl rfl (.nil _ _)

end Traverse
