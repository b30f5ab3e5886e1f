import Verif.Spec.Foreign
import Verif.Proofs.Persist
/-
Any document: what is read of it depends on the known fields only.
-/
namespace Traverse
variable {κ : Type}

theorem Json.field_find (fs : List (String × Json)) (k : String) : Json.field fs k = (Json.obj fs).get k := by
  induction fs with
  | nil => rfl
  | cons f fs ih =>
    obtain ⟨k', v⟩ := f
    rw [Json.field, ih]
    simp only [Json.get, List.find?_cons]
    by_cases h : k' = k
    · simp [h]
    · have : (k' == k) = false := by simpa using h
      simp [h, this]

/-! ### Fuel -/

theorem Json.height_pos (j : Json) : 1 ≤ j.height := by
  cases j <;> simp [Json.height]

theorem Json.heights_le {fs : List (String × Json)} {f} (h : f ∈ fs) : f.2.height ≤ Json.height.heights fs := by
  induction fs with
  | nil => cases h
  | cons g fs ih =>
    rw [Json.height.heights]
    rcases List.mem_cons.1 h with rfl | h
    · exact Nat.le_max_left ..
    · exact Nat.le_trans (ih h) (Nat.le_max_right ..)

theorem Json.get_height (j : Json) (k : String) : j.get k = .null ∨ (j.get k).height < j.height := by
  cases j with
  | obj fs =>
    simp only [Json.get]
    cases hf : fs.find? (fun f => f.1 == k) with
    | none => exact .inl rfl
    | some f =>
      refine .inr ?_
      have := Json.heights_le (List.mem_of_find?_eq_some hf)
      simp only [Option.map_some, Option.getD_some, Json.height]
      omega
  | _ => exact .inl rfl

theorem null_get (k : String) : Json.null.get k = .null := rfl

theorem Json.get_le {j : Json} {k n} (h : j.height ≤ n) : (j.get k).height ≤ n := by
  rcases Json.get_height j k with h' | h'
  · rw [h']; have := j.height_pos; simp only [Json.height]; omega
  · omega

theorem readDef_plain (n : Nat) {j : Json} (h : j.get "Poly" = .null) : readDef (n + 1) j = (do let c ← readCore j; return .plain c) := by
  rw [readDef, h]

theorem readDef_poly (n : Nat) {j : Json} (h : j.get "Poly" ≠ .null) : readDef (n + 1) j = (do
    let c ← readCore j
    let f ← readDef n ((j.get "Poly").get "File")
    let d ← readDef n ((j.get "Poly").get "Directory")
    return .both c f d) := by
  rw [readDef]
  congr 1
  funext c
  generalize j.get "Poly" = p at h ⊢
  cases p <;> first | exact absurd rfl h | rfl

theorem readDef_stable (n : Nat) : ∀ j : Json, j.height ≤ n → readDef n j = readDef (n + 1) j := by
  induction n with
  | zero => intro j h; have := j.height_pos; omega
  | succ n ih =>
    intro j h
    by_cases hnull : j.get "Poly" = .null
    · rw [readDef_plain _ hnull, readDef_plain _ hnull]
    · have hp := (Json.get_height j "Poly").resolve_left hnull
      have hle : (j.get "Poly").height ≤ n := by omega
      rw [readDef_poly _ hnull, readDef_poly _ hnull, ih _ (Json.get_le hle), ih _ (Json.get_le hle)]

theorem structsDef_null (n : Nat) : structsDef n .null = true := by
  induction n with
  | zero => rfl
  | succ n ih => simp [structsDef, null_get, ih, Json.isStruct]

theorem structsDef_stable (n : Nat) : ∀ j : Json, j.height ≤ n → structsDef n j = structsDef (n + 1) j := by
  induction n with
  | zero => intro j h; have := j.height_pos; omega
  | succ n ih =>
    intro j h
    rw [structsDef, structsDef]
    rcases Json.get_height j "Poly" with hp | hp
    · simp only [hp, null_get, structsDef_null]
    · have hle : (j.get "Poly").height ≤ n := by omega
      rw [ih _ (Json.get_le hle), ih _ (Json.get_le hle)]

theorem readDef_fuel {j : Json} {n : Nat} (h : j.height ≤ n) : readDef n j = decodeDef j := by
  induction h with
  | refl => rfl
  | step h ih => rw [← readDef_stable _ _ h, ih]

theorem structsDef_fuel {j : Json} {n : Nat} (h : j.height ≤ n) : structsDef n j = structsDef j.height j := by
  induction h with
  | refl => rfl
  | step h ih => rw [← structsDef_stable _ _ h, ih]

/-! ### Documents that say the same -/

theorem Json.SaysAs.struct {a b : Json} (h : Json.SaysAs a b) {k} (hk : k ∈ structKeys) : Json.SaysAs (a.get k) (b.get k) := by
  cases h with
  | same => exact .same _
  | fields h1 h2 =>
    have := h1 k hk
    rwa [Json.field_find, Json.field_find] at this

theorem Json.SaysAs.scalar {a b : Json} (h : Json.SaysAs a b) {k z} (hk : (k, z) ∈ scalarKeys) :
    a.get k = b.get k ∨ (a.get k = .null ∧ b.get k = z) ∨ (a.get k = z ∧ b.get k = .null) := by
  cases h with
  | same => exact .inl rfl
  | fields h1 h2 =>
    have := h2 (k, z) hk
    simpa only [Json.field_find] using this

theorem Json.SaysAs.bool {a b : Json} (h : Json.SaysAs a b) (k : String) (hk : (k, Json.bool false) ∈ scalarKeys) : (a.get k).asBool = (b.get k).asBool := by
  rcases h.scalar hk with h | ⟨h1, h2⟩ | ⟨h1, h2⟩
  · rw [h]
  · rw [h1, h2]; rfl
  · rw [h1, h2]; rfl

theorem Json.SaysAs.nat {a b : Json} (h : Json.SaysAs a b) (k : String) (hk : (k, Json.num 0) ∈ scalarKeys) : (a.get k).asNat = (b.get k).asNat := by
  rcases h.scalar hk with h | ⟨h1, h2⟩ | ⟨h1, h2⟩
  · rw [h]
  · rw [h1, h2]; rfl
  · rw [h1, h2]; rfl

theorem Json.SaysAs.int {a b : Json} (h : Json.SaysAs a b) (k : String) (hk : (k, Json.num 0) ∈ scalarKeys) : (a.get k).asInt = (b.get k).asInt := by
  rcases h.scalar hk with h | ⟨h1, h2⟩ | ⟨h1, h2⟩
  · rw [h]
  · rw [h1, h2]; rfl
  · rw [h1, h2]; rfl

theorem Json.SaysAs.str {a b : Json} (h : Json.SaysAs a b) (k : String) (hk : (k, Json.str "") ∈ scalarKeys) : (a.get k).asStr = (b.get k).asStr := by
  rcases h.scalar hk with h | ⟨h1, h2⟩ | ⟨h1, h2⟩
  · rw [h]
  · rw [h1, h2]; rfl
  · rw [h1, h2]; rfl

theorem Json.SaysAs.path {a b : Json} (h : Json.SaysAs a b) (k : String) (hk : (k, Json.path []) ∈ scalarKeys) : (a.get k).asPath = (b.get k).asPath := by
  rcases h.scalar hk with h | ⟨h1, h2⟩ | ⟨h1, h2⟩
  · rw [h]
  · rw [h1, h2]; rfl
  · rw [h1, h2]; rfl

theorem Json.SaysAs.isStruct {a b : Json} (h : Json.SaysAs a b) : a.isStruct = b.isStruct := by
  cases h <;> rfl

theorem Json.SaysAs.null {a b : Json} (h : Json.SaysAs a b) : a = .null ↔ b = .null := by
  cases h with
  | same => exact .rfl
  | fields => constructor <;> (intro h; cases h)

theorem Json.SaysAs.readCore {a b : Json} (h : Json.SaysAs a b) : readCore a = readCore b := by
  unfold Traverse.readCore
  simp only [Json.asScope]
  rw [h.nat "filter-type" (by simp [scalarKeys]), h.str "filter-description" (by simp [scalarKeys]), h.str "pattern" (by simp [scalarKeys]),
    h.nat "filter-scope" (by simp [scalarKeys]), h.bool "negate" (by simp [scalarKeys]), h.nat "if-not-applicable" (by simp [scalarKeys])]

theorem Json.SaysAs.readDef (n : Nat) : ∀ {a b : Json}, Json.SaysAs a b → readDef n a = readDef n b := by
  induction n with
  | zero => intro a b _; rfl
  | succ n ih =>
    intro a b h
    have hp := h.struct (k := "Poly") (by simp [structKeys])
    have hn := hp.null
    by_cases h1 : a.get "Poly" = .null
    · rw [readDef_plain _ h1, readDef_plain _ (hn.1 h1), h.readCore]
    · rw [readDef_poly _ h1, readDef_poly _ fun e => h1 (hn.2 e), h.readCore, ih (hp.struct (k := "File") (by simp [structKeys])),
        ih (hp.struct (k := "Directory") (by simp [structKeys]))]

theorem Json.SaysAs.def {a b : Json} (h : Json.SaysAs a b) : decodeDef a = decodeDef b := by
  rw [← readDef_fuel (Nat.le_max_left a.height b.height), h.readDef, readDef_fuel (Nat.le_max_right a.height b.height)]

theorem Json.SaysAs.structsDefN (n : Nat) : ∀ {a b : Json}, Json.SaysAs a b → structsDef n a = structsDef n b := by
  induction n with
  | zero => intro a b _; rfl
  | succ n ih =>
    intro a b h
    have hp := h.struct (k := "Poly") (by simp [structKeys])
    rw [structsDef, structsDef, h.isStruct, hp.isStruct, ih (hp.struct (k := "File") (by simp [structKeys])), ih (hp.struct (k := "Directory") (by simp [structKeys]))]

theorem Json.SaysAs.structsDef {a b : Json} (h : Json.SaysAs a b) : structsDef a.height a = structsDef b.height b := by
  rw [← structsDef_fuel (Nat.le_max_left a.height b.height), h.structsDefN, structsDef_fuel (Nat.le_max_right a.height b.height)]

theorem Json.SaysAs.pointer {α : Type} {f : Json → Option α} {a b : Json} (h : Json.SaysAs a b) (hf : f a = f b) : pointer f a = pointer f b := by
  have hn := h.null
  by_cases h1 : a = .null
  · rw [h1, hn.1 h1]
  · have h2 := fun e => h1 (hn.2 e)
    have : ∀ j : Json, j ≠ .null → Traverse.pointer f j = (f j).map some := by
      intro j hj
      cases j <;> first | exact absurd rfl hj | rfl
    rw [this a h1, this b h2, hf]

theorem Json.SaysAs.child {a b : Json} (h : Json.SaysAs a b) : decodeChild a = decodeChild b := by
  unfold decodeChild
  rw [h.nat "child-filter-type" (by simp [scalarKeys]), h.str "child-filter-description" (by simp [scalarKeys]), h.str "child-pattern" (by simp [scalarKeys]),
    h.bool "negate" (by simp [scalarKeys])]

theorem Json.SaysAs.poly {a b : Json} (h : Json.SaysAs a b) : decodePoly a = decodePoly b := by
  unfold decodePoly
  rw [(h.struct (k := "File") (by simp [structKeys])).def, (h.struct (k := "Directory") (by simp [structKeys])).def]

theorem Json.SaysAs.sample {a b : Json} (h : Json.SaysAs a b) : decodeSample a = decodeSample b := by
  unfold decodeSample
  simp only [Json.asScope]
  have hp := h.struct (k := "Poly") (by simp [structKeys])
  rw [h.nat "sample-filter-type" (by simp [scalarKeys]), h.str "sample-description" (by simp [scalarKeys]), h.str "sample-filter" (by simp [scalarKeys]),
    h.nat "sample-filter-scope" (by simp [scalarKeys]), h.bool "negate" (by simp [scalarKeys]), hp.pointer hp.poly]

theorem Json.SaysAs.options {a b : Json} (h : Json.SaysAs a b) : decodeOptions a = decodeOptions b := by
  have hb := h.struct (k := "Behaviours") (by simp [structKeys])
  have hs := h.struct (k := "Sampling") (by simp [structKeys])
  have hf := h.struct (k := "Filter") (by simp [structKeys])
  have hh := h.struct (k := "Hibernate") (by simp [structKeys])
  have hc := h.struct (k := "Concurrency") (by simp [structKeys])
  have hb1 := hb.struct (k := "SubPath") (by simp [structKeys])
  have hb2 := hb.struct (k := "Sort") (by simp [structKeys])
  have hb3 := hb.struct (k := "Cascade") (by simp [structKeys])
  have hs1 := hs.struct (k := "NoOf") (by simp [structKeys])
  have hf1 := hf.struct (k := "Node") (by simp [structKeys])
  have hf2 := hf.struct (k := "Child") (by simp [structKeys])
  have hf3 := hf.struct (k := "Sample") (by simp [structKeys])
  have hh1 := hh.struct (k := "WakeAt") (by simp [structKeys])
  have hh2 := hh.struct (k := "SleepAt") (by simp [structKeys])
  have hh3 := hh.struct (k := "Behaviour") (by simp [structKeys])
  unfold decodeOptions
  simp only
  rw [hb1.bool "KeepTrailingSep" (by simp [scalarKeys]), hb2.bool "IsCaseSensitive" (by simp [scalarKeys]), hb2.bool "SortFilesFirst" (by simp [scalarKeys]),
    hb3.nat "Depth" (by simp [scalarKeys]), hb3.bool "NoRecurse" (by simp [scalarKeys]), hs.nat "sample-type" (by simp [scalarKeys]), hs.bool "in-reverse" (by simp [scalarKeys]),
    hs1.nat "no-of-files" (by simp [scalarKeys]), hs1.nat "no-of-directories" (by simp [scalarKeys]), hf1.pointer hf1.def, hf2.pointer hf2.child, hf3.pointer hf3.sample,
    hh1.pointer hh1.def, hh2.pointer hh2.def, hh3.bool "hibernate-inclusive-wake" (by simp [scalarKeys]), hh3.bool "hibernate-inclusive-sleep" (by simp [scalarKeys]),
    hc.nat "no-of-workers" (by simp [scalarKeys])]

theorem Json.SaysAs.structsOptions {a b : Json} (h : Json.SaysAs a b) : structsOptions a = structsOptions b := by
  have hb := h.struct (k := "Behaviours") (by simp [structKeys])
  have hs := h.struct (k := "Sampling") (by simp [structKeys])
  have hf := h.struct (k := "Filter") (by simp [structKeys])
  have hh := h.struct (k := "Hibernate") (by simp [structKeys])
  have hc := h.struct (k := "Concurrency") (by simp [structKeys])
  have hb1 := hb.struct (k := "SubPath") (by simp [structKeys])
  have hb2 := hb.struct (k := "Sort") (by simp [structKeys])
  have hb3 := hb.struct (k := "Cascade") (by simp [structKeys])
  have hs1 := hs.struct (k := "NoOf") (by simp [structKeys])
  have hf1 := hf.struct (k := "Node") (by simp [structKeys])
  have hf2 := hf.struct (k := "Child") (by simp [structKeys])
  have hf3 := hf.struct (k := "Sample") (by simp [structKeys])
  have hf4 := hf3.struct (k := "Poly") (by simp [structKeys])
  have hf5 := hf4.struct (k := "File") (by simp [structKeys])
  have hf6 := hf4.struct (k := "Directory") (by simp [structKeys])
  have hh1 := hh.struct (k := "WakeAt") (by simp [structKeys])
  have hh2 := hh.struct (k := "SleepAt") (by simp [structKeys])
  have hh3 := hh.struct (k := "Behaviour") (by simp [structKeys])
  simp only [Traverse.structsOptions, structsPoly, h.isStruct, hb.isStruct, hs.isStruct, hf.isStruct, hh.isStruct, hc.isStruct, hb1.isStruct, hb2.isStruct, hb3.isStruct,
    hs1.isStruct, hf1.structsDef, hf2.isStruct, hf3.isStruct, hf4.isStruct, hf5.structsDef, hf6.structsDef, hh1.structsDef, hh2.structsDef, hh3.isStruct]

theorem metric_key (k : Metric) : k.key ∈ structKeys := by cases k <;> decide

theorem Json.SaysAs.metrics {a b : Json} (h : Json.SaysAs a b) : decodeMetrics a = decodeMetrics b := by
  unfold decodeMetrics
  congr 1
  funext k
  have hk := h.struct (metric_key k)
  have hn := hk.null
  have hc := hk.nat "Counter" (by simp [scalarKeys])
  generalize a.get k.key = u at hn hc ⊢
  generalize b.get k.key = v at hn hc ⊢
  by_cases h1 : u = .null
  · rw [h1, hn.1 h1]
  · have h2 := fun e => h1 (hn.2 e)
    cases u <;> cases v <;> first | exact absurd rfl h1 | exact absurd rfl h2 | exact hc

theorem Json.SaysAs.structsMetric {a b : Json} (h : Json.SaysAs a b) : structsMetric a = structsMetric b := by
  rw [Traverse.structsMetric, Traverse.structsMetric, h.isStruct, h.nat "T" (by simp [scalarKeys]), h.nat "Counter" (by simp [scalarKeys])]

theorem Json.SaysAs.saved {a b : Json} (h : Json.SaysAs a b) : decodeSaved a = decodeSaved b := by
  have h1 := h.struct (k := "TraverseDescription") (by simp [structKeys])
  have h2 := h.struct (k := "ResumeDescription") (by simp [structKeys])
  have h3 := h.struct (k := "Metrics") (by simp [structKeys])
  unfold decodeSaved
  rw [h.path "Tree" (by simp [scalarKeys]), h1.bool "IsRelative" (by simp [scalarKeys]), h2.bool "IsRelative" (by simp [scalarKeys]), h.nat "Subscription" (by simp [scalarKeys]),
    h.nat "Hibernation" (by simp [scalarKeys]), h.path "CurrentPath" (by simp [scalarKeys]), h.bool "IsDir" (by simp [scalarKeys]), h.int "Depth" (by simp [scalarKeys]), h3.metrics]

theorem Json.SaysAs.structsSaved {a b : Json} (h : Json.SaysAs a b) : structsSaved a = structsSaved b := by
  have h1 := h.struct (k := "TraverseDescription") (by simp [structKeys])
  have h2 := h.struct (k := "ResumeDescription") (by simp [structKeys])
  have h3 := h.struct (k := "Metrics") (by simp [structKeys])
  have h4 : ∀ k : Metric, Traverse.structsMetric ((a.get "Metrics").get k.key) = Traverse.structsMetric ((b.get "Metrics").get k.key) :=
    fun k => (h3.struct (metric_key k)).structsMetric
  simp only [Traverse.structsSaved, h.isStruct, h1.isStruct, h2.isStruct, h3.isStruct, List.all_cons, List.all_nil, h4]

theorem Json.SaysAs.unmarshalAny (P : Platform κ) {a b : Json} (h : Json.SaysAs a b) : unmarshalAny P (.ok a) = unmarshalAny P (.ok b) := by
  have h1 := h.struct (k := "Active") (by simp [structKeys])
  have h2 := h.struct (k := "JO") (by simp [structKeys])
  simp only [Traverse.unmarshalAny, h.isStruct, h1.structsSaved, h2.structsOptions, h1.pointer h1.saved, h2.pointer h2.options]

/-! ### Documents with both parts -/

theorem pointer_some {α : Type} (f : Json → Option α) {j : Json} (hj : j ≠ .null) : pointer f j = (f j).map some := by
  cases j <;> first | exact absurd rfl hj | rfl

theorem unmarshalAny_whole (P : Platform κ) {doc : Json} (h1 : doc.isStruct = true) (h2 : structsSaved (doc.get "Active") = true) (h3 : structsOptions (doc.get "JO") = true)
    (h4 : doc.get "Active" ≠ .null) (h5 : doc.get "JO" ≠ .null) :
    unmarshalAny P (.ok doc) = match unmarshal P (.ok doc) with
      | .error e => .failed e
      | .ok (o, s) => .loaded o (some s) := by
  simp only [unmarshalAny, h1, h2, h3, Bool.and_self, if_true, pointer_some _ h4, pointer_some _ h5, unmarshal]
  cases decodeSaved (doc.get "Active") with
  | none => rfl
  | some s =>
    cases decodeOptions (doc.get "JO") with
    | none => rfl
    | some j =>
      simp only [Option.map_some]
      cases comparisonEquals (some (fromJSON P j)) (some j) <;> rfl

theorem resumePlatformAny_whole (P : Platform κ) (r : Relic κ) (settings) {doc : Json} (h1 : doc.isStruct = true) (h2 : structsSaved (doc.get "Active") = true)
    (h3 : structsOptions (doc.get "JO") = true) (h4 : doc.get "Active" ≠ .null) (h5 : doc.get "JO" ≠ .null) :
    resumePlatformAny P r settings (.ok doc) = match resumePlatform P r settings (.ok doc) with
      | .error e => .failed e
      | .ok (o, a) => .ok o a := by
  simp only [resumePlatformAny, unmarshalAny_whole P h1 h2 h3 h4 h5, resumePlatform]
  rcases unmarshal P (.ok doc) with e | ⟨o, s⟩
  · rfl
  · simp only
    rcases bindOptions o settings with ⟨o', _ | e⟩
    · simp only
      have key : ∀ q : Option (Bool × Bool), (match q with
          | none => Restored.failed .nilForest
          | some (t, rr) =>
            if t ≠ s.traverseRelative then .failed .traverseFsMismatch
            else if rr ≠ s.resumeRelative then .failed .resumeFsMismatch
            else .ok o' s.active) =
          match (match q with
            | none => Except.error BuildErr.nilForest
            | some (t, rr) =>
              if t ≠ s.traverseRelative then .error .traverseFsMismatch
              else if rr ≠ s.resumeRelative then .error .resumeFsMismatch
              else .ok (o', s.active)) with
          | .error e => .failed e
          | .ok (o, a) => .ok o a := by
        intro q
        rcases q with _ | ⟨t, rr⟩
        · rfl
        · simp only
          by_cases h1 : t ≠ s.traverseRelative
          · rw [if_pos h1, if_pos h1]
          · rw [if_neg h1, if_neg h1]
            by_cases h2 : rr ≠ s.resumeRelative
            · rw [if_pos h2, if_pos h2]
            · rw [if_neg h2, if_neg h2]
      cases r.forest with
      | none => exact key (some (false, false))
      | some f => exact key (f s.active.tree)
    · rfl

/-! ### What Marshal writes -/

theorem structsDef_encode (d : JFilterDef) : ∀ n, structsDef n d.encode = true := by
  induction d with
  | plain c =>
    intro n
    cases n with
    | zero => rfl
    | succ n => simp [structsDef, JFilterDef.encode, JFilterCore.fields, Json.get, Json.isStruct, structsDef_null]
  | both c f d ihf ihd =>
    intro n
    cases n with
    | zero => rfl
    | succ n => simp [structsDef, JFilterDef.encode, JFilterCore.fields, Json.get, Json.isStruct, ihf n, ihd n]

theorem structsDef_optional (d : Option JFilterDef) (n) : structsDef n (optional JFilterDef.encode d) = true := by
  cases d with
  | none => exact structsDef_null n
  | some d => exact structsDef_encode d n

theorem structsOptions_encode (o : JOptions) : structsOptions o.encode = true := by
  have hs : (optional JSampleDef.encode o.sample).isStruct = true ∧ structsPoly ((optional JSampleDef.encode o.sample).get "Poly") = true := by
    cases o.sample with
    | none => exact ⟨rfl, rfl⟩
    | some c =>
      obtain ⟨_, _, _, _, _, p⟩ := c
      cases p with
      | none => simp [optional, JSampleDef.encode, Json.get, Json.isStruct, structsPoly, structsDef_null]
      | some p => simp [optional, JSampleDef.encode, Json.get, Json.isStruct, structsPoly, encodePoly, structsDef_encode]
  have hc : (optional JChildDef.encode o.child).isStruct = true := by
    cases o.child <;> rfl
  have ho : ∀ fs, (Json.obj fs).isStruct = true := fun _ => rfl
  simp [structsOptions, JOptions.encode, structsDef_optional, hc, hs, ho]

theorem metrics_get (m : Metrics) (k : Metric) : structsMetric (m.encode.get k.key) = true := by
  have step : ∀ (ks : List Metric),
      (Json.obj (ks.filterMap fun k => (m k).map fun n => (k.key, Json.obj [("T", .nat k.code), ("Counter", .nat n)]))).get k.key = .null ∨
      ∃ n : Nat, (Json.obj (ks.filterMap fun k => (m k).map fun n => (k.key, Json.obj [("T", .nat k.code), ("Counter", .nat n)]))).get k.key =
        Json.obj [("T", .nat k.code), ("Counter", .nat n)] := by
    intro ks
    induction ks with
    | nil => exact .inl rfl
    | cons a ks ih =>
      cases hm : m a with
      | none => simpa [List.filterMap_cons, hm] using ih
      | some n =>
        by_cases hak : a = k
        · subst hak
          exact .inr ⟨n, by simp [List.filterMap_cons, hm]⟩
        · have hkey : a.key ≠ k.key := by
            intro h; apply hak; revert h; cases a <;> cases k <;> simp [Metric.key]
          simpa [List.filterMap_cons, hm, hkey] using ih
  rcases step [Metric.filesInvoked, .filesFilteredOut, .dirsInvoked, .dirsFilteredOut, .childFound, .childFilteredOut] with h | ⟨n, h⟩
  · rw [Metrics.encode, h]; rfl
  · rw [Metrics.encode, h]
    have ho : ∀ fs, (Json.obj fs).isStruct = true := fun _ => rfl
    simp [structsMetric, ho]

theorem structsSaved_encode (s : Saved) : structsSaved s.encode = true := by
  have hm := metrics_get s.active.metrics
  have ho : ∀ fs, (Json.obj fs).isStruct = true := fun _ => rfl
  have hs : s.active.metrics.encode.isStruct = true := rfl
  simp [structsSaved, Saved.encode, hm, ho, hs]

end Traverse
