import Verif.Spec.Document
import Verif.Proofs.Foreign
import Verif.Props.Persist
/-
**C44** What stands where in a saved document. Round trips cannot tell: writing and reading the wrong way round twice is right again.
-/
namespace Traverse
variable {κ : Type}

theorem encode_describes (d : FilterDef) : Json.Describes d.toJ.encode d := by
  have core : ∀ (c : FilterCore) (p : Json), Json.Describes.Core (.obj (c.toJ.fields ++ [("Poly", p)])) c := by
    intro c p
    refine ⟨⟨_, rfl, ?_⟩, rfl, rfl, rfl, rfl, ⟨_, rfl, ?_⟩⟩
    · simp only [FilterCore.toJ]; cases c.type <;> decide
    · simp only [FilterCore.toJ]; cases c.ifNotApplicable <;> decide
  induction d with
  | plain c => exact ⟨core c _, rfl⟩
  | both c f d hf hd => exact ⟨core c _, hf, hd⟩

/-- Every state can be saved. -/
theorem marshal_total (o : Options κ) (s : Saved) : ∃ doc, marshal o s = .ok doc :=
  ⟨_, by simp [marshal, comparisonEquals, toJSON_equal]; rfl⟩

/-- **C44, the state.** In a document that Marshal writes, the state is found under these names; subscription and hibernation are the documented numbers. -/
theorem C44_document_state (o : Options κ) (s : Saved) (doc : Json) (h : marshal o s = .ok doc) :
    doc.under ["Active", "Tree"] = .path s.active.tree ∧ doc.under ["Active", "CurrentPath"] = .path s.active.currentPath ∧
    doc.under ["Active", "TraverseDescription", "IsRelative"] = .bool s.traverseRelative ∧ doc.under ["Active", "ResumeDescription", "IsRelative"] = .bool s.resumeRelative ∧
    (doc.under ["Active", "Subscription"]).Stands .subscription s.active.sub.label ∧ (doc.under ["Active", "Hibernation"]).Stands .hibernation s.active.hibernation.label ∧
    doc.under ["Active", "IsDir"] = .bool s.active.isDir ∧ doc.under ["Active", "Depth"] = .num s.active.depth := by
  simp only [marshal] at h
  split at h
  · cases h
  · cases h
    refine ⟨rfl, rfl, rfl, rfl, ⟨_, rfl, ?_⟩, ⟨_, rfl, ?_⟩, rfl, rfl⟩
    · cases s.active.sub <;> decide
    · cases s.active.hibernation <;> decide

/-- **C44, the metrics.** Each metric that was registered is found under its documented number, with that number and its count; one that was not is not found. -/
theorem C44_document_metrics (o : Options κ) (s : Saved) (doc : Json) (h : marshal o s = .ok doc) (m : Metric) :
    (∀ n, s.active.metrics m = some n → doc.under ["Active", "Metrics", toString m.number, "T"] = .num m.number ∧
      doc.under ["Active", "Metrics", toString m.number, "Counter"] = .num n) ∧
    (s.active.metrics m = none → doc.under ["Active", "Metrics", toString m.number] = .null) ∧
    (m.number, m.label) ∈ Enum.documented .metric := by
  simp only [marshal] at h
  split at h
  · cases h
  · cases h
    have key : ∀ ks, (Json.obj [("Active", s.encode), ("JO", (toJSON o).encode)]).under ("Active" :: "Metrics" :: ks) = (s.active.metrics.encode).under ks := fun _ => rfl
    simp only [key]
    have field : ∀ (k : String), Json.field ([Metric.filesInvoked, .filesFilteredOut, .dirsInvoked, .dirsFilteredOut, .childFound, .childFilteredOut].filterMap fun k =>
        (s.active.metrics k).map fun n => (k.key, Json.obj [("T", .nat k.code), ("Counter", .nat n)])) k =
        match [Metric.filesInvoked, .filesFilteredOut, .dirsInvoked, .dirsFilteredOut, .childFound, .childFilteredOut].find? (fun q => (s.active.metrics q).isSome && q.key == k) with
        | none => .null
        | some q => .obj [("T", .nat q.code), ("Counter", .nat ((s.active.metrics q).getD 0))] := by
      intro k
      generalize [Metric.filesInvoked, .filesFilteredOut, .dirsInvoked, .dirsFilteredOut, .childFound, .childFilteredOut] = l
      induction l with
      | nil => rfl
      | cons q l ih =>
        rw [List.filterMap_cons, List.find?_cons]
        cases hq : s.active.metrics q with
        | none => simpa using ih
        | some n =>
          simp only [Option.map_some, Option.isSome_some, Bool.true_and]
          by_cases hk : q.key = k
          · simp [Json.field, hk, hq]
          · rw [Json.field, if_neg hk, ih, beq_eq_false_iff_ne.2 hk]
    have under : ∀ (k : String) ks, (s.active.metrics.encode).under (k :: ks) = (Json.field ([Metric.filesInvoked, .filesFilteredOut, .dirsInvoked, .dirsFilteredOut, .childFound,
        .childFilteredOut].filterMap fun k => (s.active.metrics k).map fun n => (k.key, Json.obj [("T", .nat k.code), ("Counter", .nat n)])) k).under ks := fun _ _ => rfl
    simp only [under, field]
    have num : ∀ m : Metric, toString m.number = m.key := by intro m; cases m <;> decide
    rw [num]
    have find : [Metric.filesInvoked, .filesFilteredOut, .dirsInvoked, .dirsFilteredOut, .childFound, .childFilteredOut].find?
        (fun q => (s.active.metrics q).isSome && q.key == m.key) = if (s.active.metrics m).isSome then some m else none := by
      cases hm : s.active.metrics m <;> cases m <;> simp [List.find?_cons, hm, Metric.key]
    rw [find]
    refine ⟨?_, ?_, by cases m <;> decide⟩
    · intro n hn
      have hs : (s.active.metrics m).isSome = true := by rw [hn]; rfl
      rw [if_pos hs]
      refine ⟨by cases m <;> rfl, ?_⟩
      show Json.nat ((s.active.metrics m).getD 0) = .num n
      rw [hn]
      rfl
    · intro hn
      rw [hn]
      rfl

/-- **C44, the options.** Where the options are in a document that Marshal writes; a filter or a condition that there is not is null. -/
theorem C44_document_options (o : Options κ) (s : Saved) (doc : Json) (h : marshal o s = .ok doc) :
    doc.under ["JO", "Behaviours", "SubPath", "KeepTrailingSep"] = .bool o.behaviours.keepTrailingSep ∧
    doc.under ["JO", "Behaviours", "Sort", "IsCaseSensitive"] = .bool o.behaviours.isCaseSensitive ∧
    doc.under ["JO", "Behaviours", "Sort", "SortFilesFirst"] = .bool o.behaviours.sortFilesFirst ∧
    doc.under ["JO", "Behaviours", "Cascade", "Depth"] = .num o.behaviours.cascade.depth ∧
    doc.under ["JO", "Behaviours", "Cascade", "NoRecurse"] = .bool o.behaviours.cascade.noRecurse ∧
    (doc.under ["JO", "Sampling", "sample-type"]).Stands .sampleType o.sampling.type.label ∧
    doc.under ["JO", "Sampling", "in-reverse"] = .bool o.sampling.inReverse ∧
    doc.under ["JO", "Sampling", "NoOf", "no-of-files"] = .num o.sampling.files ∧ doc.under ["JO", "Sampling", "NoOf", "no-of-directories"] = .num o.sampling.dirs ∧
    doc.under ["JO", "Hibernate", "Behaviour", "hibernate-inclusive-wake"] = .bool o.hibernate.inclusiveWake ∧
    doc.under ["JO", "Hibernate", "Behaviour", "hibernate-inclusive-sleep"] = .bool o.hibernate.inclusiveSleep ∧
    doc.under ["JO", "Concurrency", "no-of-workers"] = .num o.concurrency.now ∧
    (∀ field ∈ [(["JO", "Filter", "Node"], o.filter.node), (["JO", "Hibernate", "WakeAt"], o.hibernate.wakeAt), (["JO", "Hibernate", "SleepAt"], o.hibernate.sleepAt)],
      match field.2 with
      | none => doc.under field.1 = .null
      | some d => (doc.under field.1).Describes d) ∧
    (match o.filter.child with
      | none => doc.under ["JO", "Filter", "Child"] = .null
      | some d => (doc.under ["JO", "Filter", "Child", "child-filter-type"]).Stands .filterType d.type.label ∧
          doc.under ["JO", "Filter", "Child", "child-filter-description"] = .str d.description ∧ doc.under ["JO", "Filter", "Child", "child-pattern"] = .str d.pattern ∧
          doc.under ["JO", "Filter", "Child", "negate"] = .bool d.negate) ∧
    (match o.filter.sample with
      | none => doc.under ["JO", "Filter", "Sample"] = .null
      | some d => (doc.under ["JO", "Filter", "Sample", "sample-filter-type"]).Stands .filterType d.type.label ∧
          doc.under ["JO", "Filter", "Sample", "sample-description"] = .str d.description ∧ doc.under ["JO", "Filter", "Sample", "sample-filter"] = .str d.pattern ∧
          doc.under ["JO", "Filter", "Sample", "sample-filter-scope"] = .num d.scope.toNat ∧ doc.under ["JO", "Filter", "Sample", "negate"] = .bool d.negate) := by
  simp only [marshal] at h
  split at h
  · cases h
  · cases h
    have types : ∀ t : FilterType, (t.code, t.label) ∈ Enum.documented .filterType := by intro t; cases t <;> decide
    refine ⟨rfl, rfl, rfl, rfl, rfl, ⟨_, rfl, ?_⟩, rfl, rfl, rfl, rfl, rfl, rfl, ?_, ?_, ?_⟩
    · simp only [toJSON]; cases o.sampling.type <;> decide
    · intro field hf
      have point : ∀ d : Option FilterDef, match d with
          | none => optional JFilterDef.encode (d.map FilterDef.toJ) = .null
          | some d' => (optional JFilterDef.encode (d.map FilterDef.toJ)).Describes d' := by
        intro d
        cases d with
        | none => rfl
        | some d => exact encode_describes d
      simp only [List.mem_cons, List.not_mem_nil, or_false] at hf
      rcases hf with rfl | rfl | rfl
      · exact point o.filter.node
      · exact point o.hibernate.wakeAt
      · exact point o.hibernate.sleepAt
    · cases hc : o.filter.child with
      | none =>
        show optional JChildDef.encode (toJSON o).child = .null
        rw [toJSON, hc]; rfl
      | some d =>
        have : ∀ ks, (Json.obj [("Active", s.encode), ("JO", (toJSON o).encode)]).under ("JO" :: "Filter" :: "Child" :: ks) =
            (JChildDef.encode { type := d.type, description := d.description, pattern := d.pattern, negate := d.negate }).under ks := by
          intro ks
          show (optional JChildDef.encode (toJSON o).child).under ks = _
          rw [toJSON, hc]; rfl
        simp only [this]
        exact ⟨⟨_, rfl, types _⟩, rfl, rfl, rfl⟩
    · cases hc : o.filter.sample with
      | none =>
        show optional JSampleDef.encode (toJSON o).sample = .null
        rw [toJSON, hc]; rfl
      | some d =>
        have : ∀ ks, (Json.obj [("Active", s.encode), ("JO", (toJSON o).encode)]).under ("JO" :: "Filter" :: "Sample" :: ks) =
            (JSampleDef.encode { type := d.type, description := d.description, pattern := d.pattern, scope := d.scope, negate := d.negate }).under ks := by
          intro ks
          show (optional JSampleDef.encode (toJSON o).sample).under ks = _
          rw [toJSON, hc]; rfl
        simp only [this]
        exact ⟨⟨_, rfl, types _⟩, rfl, rfl, rfl, rfl⟩

/-- Not vacuous: every state can be saved with any options; and what one such document holds. -/
example (o : Options κ) (s : Saved) : ∃ doc, marshal o s = .ok doc := by
  obtain ⟨doc, h⟩ := marshal_total o s
  exact ⟨doc, h⟩

example :
    let s : Saved := ⟨⟨["r"], .directoriesWithFiles, .active, ["r", "a"], true, 1, fun m => if m = .dirsInvoked then some 7 else none⟩, true, false⟩
    ((s.encode.under ["Subscription"]).Stands .subscription "subscribe-directories-with-files" ∧ s.encode.under ["Metrics", "3", "Counter"] = .num 7 ∧
      s.encode.under ["Metrics", "4"] = .null) ∧ (Json.num 3).Stands .subscription "subscribe-directories-with-files" ∧
      ¬ (Json.num 2).Stands .subscription "subscribe-directories-with-files" := by
  intro s
  refine ⟨⟨⟨3, rfl, by decide⟩, rfl, rfl⟩, ⟨3, rfl, by decide⟩, ?_⟩
  rintro ⟨v, h1, h2⟩
  cases v with
  | zero => cases h1
  | succ v => simp only [Json.num.injEq] at h1; have : v = 1 := by omega
              subst this; revert h2; decide

end Traverse
