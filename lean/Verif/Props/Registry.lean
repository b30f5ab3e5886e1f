import Verif.Model.Chain
/-
C56: the metrics registry (internal/enclave/supervisor.go, core/metrics.go). C34: the manifest of roles.
-/
namespace Traverse

/-! ### C56 -/

/-- What can be done to the metrics of a session. -/
inductive MetricOp where
  | single (k : Metric)
  | many (ks : List Metric)
  | tick (k : Metric)
  | times (k : Metric) (n : Nat)
  | load (other : Metrics)

/-- Doing it. -/
def MetricOp.run (m : Metrics) : MetricOp → Metrics
  | .single k => m.single k
  | .many ks => m.many ks
  | .tick k => m.tick k
  | .times k n => m.times k n
  | .load other => m.merge other

/-- Does it register the metric? -/
def MetricOp.registers (k : Metric) : MetricOp → Bool
  | .single j => decide (j = k)
  | .many ks => decide (k ∈ ks)
  | _ => false

/-- What it adds to the metric. -/
def MetricOp.adds (k : Metric) : MetricOp → Nat
  | .tick j => if j = k then 1 else 0
  | .times j n => if j = k then n else 0
  | .load other => (other k).getD 0
  | _ => 0

theorem many_at (ks : List Metric) : ∀ (m : Metrics) (k : Metric),
    m.many ks k = if k ∈ ks ∧ m k = none then some 0 else m k := by
  induction ks with
  | nil => intro m k; simp [Metrics.many]
  | cons j ks ih =>
    intro m k
    have := ih (m.single j) k
    unfold Metrics.many at this ⊢
    rw [List.foldl_cons, this]
    unfold Metrics.single
    by_cases hk : k = j
    · subst hk
      cases hm : m k <;> simp [hm]
    · simp [hk]

theorem metric_step_registered (k : Metric) (op : MetricOp) (m : Metrics) (a : Nat) (h : m k = some a) :
    op.run m k = some (a + op.adds k) := by
  cases op with
  | single j => simp only [MetricOp.run, MetricOp.adds, Metrics.single]; by_cases e : k = j <;> simp_all
  | many ks => simp only [MetricOp.run, MetricOp.adds, many_at]; simp [h]
  | tick j =>
    simp only [MetricOp.run, MetricOp.adds, Metrics.tick, Metrics.times]
    by_cases e : k = j
    · subst e; simp [h]
    · have : ¬ j = k := fun x => e x.symm
      simp [e, this, h]
  | times j n =>
    simp only [MetricOp.run, MetricOp.adds, Metrics.times]
    by_cases e : k = j
    · subst e; simp [h]
    · have : ¬ j = k := fun x => e x.symm
      simp [e, this, h]
  | load other =>
    simp only [MetricOp.run, MetricOp.adds, Metrics.merge, h]
    cases other k <;> simp

theorem metric_step_unregistered (k : Metric) (op : MetricOp) (m : Metrics) (h : m k = none) :
    op.run m k = if op.registers k then some 0 else none := by
  cases op with
  | single j =>
    simp only [MetricOp.run, MetricOp.registers, Metrics.single]
    by_cases e : k = j
    · subst e; simp [h]
    · have : ¬ j = k := fun x => e x.symm
      simp [e, this, h]
  | many ks => simp only [MetricOp.run, MetricOp.registers, many_at]; simp [h]
  | tick j =>
    simp only [MetricOp.run, MetricOp.registers, Metrics.tick, Metrics.times]
    by_cases e : k = j
    · subst e; simp [h]
    · simp [e, h]
  | times j n =>
    simp only [MetricOp.run, MetricOp.registers, Metrics.times]
    by_cases e : k = j
    · subst e; simp [h]
    · simp [e, h]
  | load other => simp [MetricOp.run, MetricOp.registers, Metrics.merge, h]

theorem metric_run_registered (k : Metric) (ops : List MetricOp) : ∀ (m : Metrics) (a : Nat), m k = some a →
    ops.foldl MetricOp.run m k = some (a + (ops.map (MetricOp.adds k)).sum) := by
  induction ops with
  | nil => intro m a h; simp [h]
  | cons op ops ih =>
    intro m a h
    rw [List.foldl_cons, ih _ _ (metric_step_registered k op m a h)]
    simp [Nat.add_assoc]

/-- **C56** After any history of registering, ticking, adding and merging, the count of a metric is the sum of what was added since
it was first registered: registering again loses nothing, no metric ever affects another, merging adds. -/
theorem C56_count_is_sum (k : Metric) (ops : List MetricOp) :
    (ops.foldl MetricOp.run (fun _ => none)).count k =
      ((ops.dropWhile (fun op => !op.registers k)).map (MetricOp.adds k)).sum := by
  have gen : ∀ (ops : List MetricOp) (m : Metrics), m k = none →
      (ops.foldl MetricOp.run m).count k = ((ops.dropWhile (fun op => !op.registers k)).map (MetricOp.adds k)).sum := by
    intro ops
    induction ops with
    | nil => intro m h; simp [Metrics.count, h]
    | cons op ops ih =>
      intro m h
      have hs := metric_step_unregistered k op m h
      rw [List.foldl_cons]
      cases hr : op.registers k with
      | false =>
        rw [hr] at hs
        rw [ih _ (by simpa using hs)]
        simp [hr]
      | true =>
        rw [hr] at hs
        unfold Metrics.count
        rw [metric_run_registered k ops _ 0 (by simpa using hs)]
        have : op.adds k = 0 := by
          cases op <;> simp_all [MetricOp.registers, MetricOp.adds]
        simp [hr, this]
  exact gen ops _ rfl

/-- A metric is known exactly when something registered it. -/
theorem C56_known_iff_registered (k : Metric) (ops : List MetricOp) :
    ((ops.foldl MetricOp.run (fun _ => none)) k).isSome = ops.any (MetricOp.registers k) := by
  have gen : ∀ (ops : List MetricOp) (m : Metrics), (ops.foldl MetricOp.run m k).isSome = ((m k).isSome || ops.any (MetricOp.registers k)) := by
    intro ops
    induction ops with
    | nil => intro m; simp
    | cons op ops ih =>
      intro m
      rw [List.foldl_cons, ih, List.any_cons]
      cases hm : m k with
      | none => rw [metric_step_unregistered k op m hm]; cases op.registers k <;> simp
      | some a => rw [metric_step_registered k op m a hm]; simp
  simpa using gen ops (fun _ => none)

/-- Counts never go down. -/
theorem C56_never_decreases (k : Metric) (ops more : List MetricOp) :
    (ops.foldl MetricOp.run (fun _ => none)).count k ≤ ((ops ++ more).foldl MetricOp.run (fun _ => none)).count k := by
  rw [List.foldl_append]
  cases h : ops.foldl MetricOp.run (fun _ => none) k with
  | none => simp [Metrics.count, h]
  | some a =>
    unfold Metrics.count
    rw [metric_run_registered k more _ a h, h]
    simp

/-- Not vacuous: something counted before registering is lost, registering twice loses nothing, merging an unregistered one too. -/
example :
    let ops : List MetricOp := [.tick .filesInvoked, .many [.filesInvoked, .dirsInvoked], .tick .filesInvoked, .times .filesInvoked 4,
      .single .filesInvoked, .tick .dirsInvoked, .load (fun k => if k = .filesInvoked ∨ k = .childFound then some 10 else none)]
    let m := ops.foldl MetricOp.run (fun _ => none)
    m.count .filesInvoked = 15 ∧ m.count .dirsInvoked = 1 ∧ m.count .childFound = 0 ∧ m .childFound = none := by
  decide +kernel

/-! ### C34: which roles are arranged -/

/-- The roles arranged are among the active ones, in their order. -/
theorem C34_manifest_sublist (active : List Role) : (manifest active).Sublist active := by
  have gen : ∀ (l acc : List Role), ∃ t, t.Sublist l ∧
      l.foldl (fun acc r => if manifestRule r acc then acc ++ [r] else acc) acc = acc ++ t := by
    intro l
    induction l with
    | nil => intro acc; exact ⟨[], .slnil, by simp⟩
    | cons r l ih =>
      intro acc
      rw [List.foldl_cons]
      cases hr : manifestRule r acc with
      | false => obtain ⟨t, h1, h2⟩ := ih acc; exact ⟨t, h1.cons _, by simpa [hr] using h2⟩
      | true =>
        obtain ⟨t, h1, h2⟩ := ih (acc ++ [r])
        exact ⟨r :: t, h1.cons_cons _, by simpa [hr] using h2⟩
  obtain ⟨t, h1, h2⟩ := gen active []
  unfold manifest
  rw [h2]; simpa using h1

theorem manifest_append (active more : List Role) :
    manifest (active ++ more) = more.foldl (fun acc r => if manifestRule r acc then acc ++ [r] else acc) (manifest active) := by
  unfold manifest; rw [List.foldl_append]

theorem manifest_snoc (active : List Role) (r : Role) :
    manifest (active ++ [r]) = if manifestRule r (manifest active) then manifest active ++ [r] else manifest active := by
  rw [manifest_append]; rfl

/-- A role is arranged if and only if it is one of the five decorators, and it is not the filter coming after the sampler, nor the
nanny coming after a filter that was arranged. -/
theorem C34_manifest_defers (active : List Role) (r : Role) :
    manifest (active ++ [r]) = manifest active ++ [r] ↔
      r ∈ [Role.fastward, .hibernate, .nanny, .clientFilter, .sampler] ∧ ¬ (r = .clientFilter ∧ Role.sampler ∈ active) ∧
        ¬ (r = .nanny ∧ Role.clientFilter ∈ manifest active) := by
  have hs : Role.sampler ∈ manifest active ↔ Role.sampler ∈ active := by
    refine ⟨fun h => (C34_manifest_sublist active).subset h, ?_⟩
    suffices ∀ (l acc : List Role), (Role.sampler ∈ acc ∨ Role.sampler ∈ l) →
        Role.sampler ∈ l.foldl (fun acc r => if manifestRule r acc then acc ++ [r] else acc) acc from
      fun h => this active [] (.inr h)
    intro l
    induction l with
    | nil => intro acc h; simpa using h
    | cons a l ih =>
      intro acc h
      rw [List.foldl_cons]
      apply ih
      by_cases ha : a = .sampler
      · subst ha
        left
        have : manifestRule .sampler acc = true := by simp [manifestRule, manifestOrder]
        simp [this]
      · rcases h with h | h
        · left; split <;> simp [h]
        · right; rcases List.mem_cons.1 h with h | h
          · exact absurd h.symm ha
          · exact h
  rw [manifest_snoc]
  have key : manifestRule r (manifest active) = true ↔
      r ∈ [Role.fastward, .hibernate, .nanny, .clientFilter, .sampler] ∧ ¬ (r = .clientFilter ∧ Role.sampler ∈ active) ∧
        ¬ (r = .nanny ∧ Role.clientFilter ∈ manifest active) := by
    unfold manifestRule manifestOrder
    rw [← hs]
    cases r <;> simp
  rw [← key]
  cases manifestRule r (manifest active) <;> simp

/-- Not vacuous: all rules at work. -/
example : manifest [.hibernate, .clientFilter, .nanny, .sampler, .clientFilter, .undefined] = [.hibernate, .clientFilter, .sampler] := by
  decide +kernel

end Traverse
