import Verif.Props.Foreign
import Verif.Spec.Expected
/-
C71: a value of the wrong kind anywhere in the file is an error.
-/
namespace Traverse
variable {κ : Type}

theorem under_get (j : Json) (k : String) (ks : List String) : j.under (k :: ks) = (j.get k).under ks := by
  cases j with
  | obj fs => rw [Json.under, Json.field_find]
  | _ => cases ks <;> simp [Json.under, Json.get]

theorem under_append (p q : List String) : ∀ j : Json, j.under (p ++ q) = (j.under p).under q := by
  induction p with
  | nil => intro j; rfl
  | cons k p ih => intro j; rw [List.cons_append, under_get, under_get, ih]

theorem null_under (ks : List String) : Json.null.under ks = .null := by cases ks <;> rfl

theorem misfit_struct {j : Json} (h : ¬ j.Fits .object) : j.isStruct = false := by
  cases j <;> first | rfl | exact absurd trivial h
theorem misfit_bool {j : Json} (h : ¬ j.Fits .truth) : j.asBool = none := by
  cases j <;> first | rfl | exact absurd trivial h
theorem misfit_nat {j : Json} (h : ¬ j.Fits .natural) : j.asNat = none := by
  cases j <;> first
    | rfl | exact absurd trivial h
    | (rename_i n; cases n with
        | ofNat n => exact absurd (Int.natCast_nonneg n) h
        | negSucc n => rfl)
theorem misfit_int {j : Json} (h : ¬ j.Fits .integer) : j.asInt = none := by
  cases j <;> first | rfl | exact absurd trivial h
theorem misfit_str {j : Json} (h : ¬ j.Fits .text) : j.asStr = none := by
  cases j <;> first | rfl | exact absurd trivial h
theorem misfit_path {j : Json} (h : ¬ j.Fits .path) : j.asPath = none := by
  cases j <;> first | rfl | exact absurd trivial h

/-- A definition that is not read. -/
def BadDef (j : Json) : Prop := structsDef j.height j = false ∨ (j ≠ .null ∧ decodeDef j = none)

theorem null_fits (k : Json.Kind) : Json.null.Fits k := by cases k <;> trivial

theorem struct_unfold {j : Json} : structsDef j.height j = (j.isStruct && (j.get "Poly").isStruct &&
    structsDef ((j.get "Poly").get "File").height ((j.get "Poly").get "File") &&
    structsDef ((j.get "Poly").get "Directory").height ((j.get "Poly").get "Directory")) := by
  rw [structsDef_stable _ _ (Nat.le_refl _), structsDef, structsDef_fuel (Json.get_le (Json.get_le (Nat.le_refl _))),
    structsDef_fuel (Json.get_le (Json.get_le (Nat.le_refl _)))]

theorem decode_unfold {j : Json} (h : j.get "Poly" ≠ .null) : decodeDef j = (do
    let c ← readCore j
    let f ← decodeDef ((j.get "Poly").get "File")
    let d ← decodeDef ((j.get "Poly").get "Directory")
    return .both c f d) := by
  unfold decodeDef
  rw [readDef_stable _ _ (Nat.le_refl _), readDef_poly _ h, readDef_fuel (Json.get_le (Json.get_le (Nat.le_refl _))),
    readDef_fuel (Json.get_le (Json.get_le (Nat.le_refl _)))]
  rfl

theorem decode_core {j : Json} (h : readCore j = none) : decodeDef j = none := by
  unfold decodeDef
  rw [readDef_stable _ _ (Nat.le_refl _), readDef, h]
  rfl

theorem get_null_of {j : Json} {k} (h : j = .null) : j.get k = .null := by rw [h]; rfl

theorem BadDef.ne_null {j : Json} (h : BadDef j) : j ≠ .null := by
  rintro rfl
  rcases h with h | h
  · rw [structsDef_null] at h; cases h
  · exact h.1 rfl

theorem BadDef.file {j : Json} (h : BadDef ((j.get "Poly").get "File")) : BadDef j := by
  have hp : j.get "Poly" ≠ .null := fun e => h.ne_null (get_null_of e)
  rcases h with h | ⟨h1, h2⟩
  · exact .inl (by rw [struct_unfold, h]; simp)
  · refine .inr ⟨fun e => hp (get_null_of e), ?_⟩
    rw [decode_unfold hp, h2]
    simp

theorem BadDef.directory {j : Json} (h : BadDef ((j.get "Poly").get "Directory")) : BadDef j := by
  have hp : j.get "Poly" ≠ .null := fun e => h.ne_null (get_null_of e)
  rcases h with h | ⟨h1, h2⟩
  · exact .inl (by rw [struct_unfold, h]; simp)
  · refine .inr ⟨fun e => hp (get_null_of e), ?_⟩
    rw [decode_unfold hp, h2]
    simp

theorem misfit_definition {j : Json} {q k} (hq : (q, k) ∈ definitionFields) (h : ¬ (j.under q).Fits k) : BadDef j := by
  have hne : j ≠ .null := by
    rintro rfl
    rw [null_under] at h
    exact h (null_fits k)
  simp only [definitionFields, List.mem_cons, List.not_mem_nil, or_false, Prod.mk.injEq] at hq
  rcases hq with ⟨rfl, rfl⟩ | ⟨rfl, rfl⟩ | ⟨rfl, rfl⟩ | ⟨rfl, rfl⟩ | ⟨rfl, rfl⟩ | ⟨rfl, rfl⟩ | ⟨rfl, rfl⟩ | ⟨rfl, rfl⟩ <;>
    simp only [under_get, Json.under] at h
  · exact .inl (by rw [struct_unfold, misfit_struct h]; simp)
  · exact .inl (by rw [struct_unfold, misfit_struct h]; simp)
  all_goals refine .inr ⟨hne, decode_core ?_⟩
  · simp [readCore, misfit_nat h]
  · simp [readCore, misfit_str h]
  · simp [readCore, misfit_str h]
  · simp [readCore, Json.asScope, misfit_nat h]
  · simp [readCore, misfit_bool h]
  · simp [readCore, misfit_nat h]

theorem definition_place {doc : Json} {p} (hp : DefinitionAt p) : ∀ h : BadDef (doc.under p), ∃ p' ∈ definitionPlaces, BadDef (doc.under p') := by
  induction hp with
  | place h => intro hb; exact ⟨_, h, hb⟩
  | @file p h ih =>
    intro hb
    rw [under_append, under_get, under_get] at hb
    exact ih hb.file
  | @directory p h ih =>
    intro hb
    rw [under_append, under_get, under_get] at hb
    exact ih hb.directory

theorem pointer_bad {α} {f : Json → Option α} {j : Json} (h1 : j ≠ .null) (h2 : f j = none) : pointer f j = none := by
  cases j <;> first | exact absurd rfl h1 | simp [pointer, h2]

/-- A document that is rejected. -/
def Rejected (doc : Json) : Prop :=
  (doc.isStruct && structsSaved (doc.get "Active") && structsOptions (doc.get "JO")) = false ∨
  pointer decodeSaved (doc.get "Active") = none ∨ pointer decodeOptions (doc.get "JO") = none

theorem reject_definition {doc : Json} {p} (hp : p ∈ definitionPlaces) (h : BadDef (doc.under p)) : Rejected doc := by
  have hne : doc.get "JO" ≠ .null := by
    intro e
    apply h.ne_null
    simp only [definitionPlaces, List.mem_cons, List.not_mem_nil, or_false] at hp
    rcases hp with rfl | rfl | rfl | rfl | rfl <;> rw [under_get, e, null_under]
  simp only [definitionPlaces, List.mem_cons, List.not_mem_nil, or_false] at hp
  rcases hp with rfl | rfl | rfl | rfl | rfl <;> simp only [under_get, Json.under] at h
  · rcases h with h | ⟨h1, h2⟩
    · exact .inl (by simp [structsOptions, h])
    · exact .inr (.inr (pointer_bad hne (by simp [decodeOptions, pointer_bad h1 h2])))
  · rcases h with h | ⟨h1, h2⟩
    · exact .inl (by simp [structsOptions, h])
    · exact .inr (.inr (pointer_bad hne (by simp [decodeOptions, pointer_bad h1 h2])))
  · rcases h with h | ⟨h1, h2⟩
    · exact .inl (by simp [structsOptions, h])
    · exact .inr (.inr (pointer_bad hne (by simp [decodeOptions, pointer_bad h1 h2])))
  · rcases h with h | ⟨h1, h2⟩
    · exact .inl (by simp [structsOptions, structsPoly, h])
    · have hp : ((doc.get "JO").get "Filter").get "Sample" |>.get "Poly" |> (· ≠ .null) := fun e => h1 (get_null_of e)
      have hs : ((doc.get "JO").get "Filter").get "Sample" ≠ .null := fun e => hp (get_null_of e)
      have : decodePoly (((((doc.get "JO").get "Filter").get "Sample")).get "Poly") = none := by simp [decodePoly, h2]
      have := pointer_bad hs (f := decodeSample) (by simp [decodeSample, pointer_bad hp this])
      exact .inr (.inr (pointer_bad hne (by simp [decodeOptions, this])))
  · rcases h with h | ⟨h1, h2⟩
    · exact .inl (by simp [structsOptions, structsPoly, h])
    · have hp : ((doc.get "JO").get "Filter").get "Sample" |>.get "Poly" |> (· ≠ .null) := fun e => h1 (get_null_of e)
      have hs : ((doc.get "JO").get "Filter").get "Sample" ≠ .null := fun e => hp (get_null_of e)
      have : decodePoly (((((doc.get "JO").get "Filter").get "Sample")).get "Poly") = none := by simp [decodePoly, h2]
      have := pointer_bad hs (f := decodeSample) (by simp [decodeSample, pointer_bad hp this])
      exact .inr (.inr (pointer_bad hne (by simp [decodeOptions, this])))

theorem reject_field {doc : Json} {p k} (hp : (p, k) ∈ documentFields) (h : ¬ (doc.under p).Fits k) : Rejected doc := by
  have hsub : ∀ q r, p = q ++ r → doc.under q ≠ .null := by
    rintro q r rfl e
    rw [under_append, e, null_under] at h
    exact h (null_fits k)
  simp only [documentFields, List.flatMap_cons, List.flatMap_nil, List.cons_append, List.nil_append, List.append_nil, List.mem_cons, List.not_mem_nil, or_false, Prod.mk.injEq] at hp
  have hA : ∀ r, p = "Active" :: r → decodeSaved (doc.get "Active") = none → Rejected doc := by
    intro r hr hd
    have := hsub ["Active"] r (by simpa using hr)
    rw [under_get] at this
    exact .inr (.inl (pointer_bad this hd))
  have hJ : ∀ r, p = "JO" :: r → decodeOptions (doc.get "JO") = none → Rejected doc := by
    intro r hr hd
    have := hsub ["JO"] r (by simpa using hr)
    rw [under_get] at this
    exact .inr (.inr (pointer_bad this hd))
  have hC : ∀ r, p = "JO" :: "Filter" :: "Child" :: r → decodeChild (((doc.get "JO").get "Filter").get "Child") = none → Rejected doc := by
    intro r hr hd
    have := hsub ["JO", "Filter", "Child"] r (by simpa using hr)
    simp only [under_get, Json.under] at this
    exact hJ _ hr (by simp [decodeOptions, pointer_bad this hd])
  have hS : ∀ r, p = "JO" :: "Filter" :: "Sample" :: r → decodeSample (((doc.get "JO").get "Filter").get "Sample") = none → Rejected doc := by
    intro r hr hd
    have := hsub ["JO", "Filter", "Sample"] r (by simpa using hr)
    simp only [under_get, Json.under] at this
    exact hJ _ hr (by simp [decodeOptions, pointer_bad this hd])
  clear hsub
  repeat' (refine Or.elim hp ?_ ?_ <;> clear hp <;> intro hp)
  all_goals
    obtain ⟨hp, rfl⟩ := hp
    subst hp
    simp only [under_get, Json.under] at h
    first
      | (have h := misfit_struct h
         (refine .inl ?_; simp [structsSaved, structsOptions, structsPoly, structsMetric, Metric.key, h]; done))
      | (have h := misfit_nat h
         first
           | (refine hA _ rfl ?_; simp [decodeSaved, h]; done)
           | (refine .inl ?_; simp [structsSaved, structsMetric, Metric.key, Metric.code, h]; done)
           | (refine hC _ rfl ?_; simp [decodeChild, h]; done)
           | (refine hS _ rfl ?_; simp [decodeSample, Json.asScope, h]; done)
           | (refine hJ _ rfl ?_; simp [decodeOptions, h]; done))
      | (have h := misfit_str h
         first
           | (refine hC _ rfl ?_; simp [decodeChild, h]; done)
           | (refine hS _ rfl ?_; simp [decodeSample, h]; done))
      | (have h := misfit_bool h
         first
           | (refine hA _ rfl ?_; simp [decodeSaved, h]; done)
           | (refine hC _ rfl ?_; simp [decodeChild, h]; done)
           | (refine hS _ rfl ?_; simp [decodeSample, h]; done)
           | (refine hJ _ rfl ?_; simp [decodeOptions, h]; done))
      | (have h := misfit_int h
         (refine hA _ rfl ?_; simp [decodeSaved, h]; done))
      | (have h := misfit_path h
         (refine hA _ rfl ?_; simp [decodeSaved, h]; done))

/-- **C71** A value of the wrong kind anywhere in the file, be it deep inside a filter definition: Resume fails with an error, and nothing happens. -/
theorem C71_misfit (P : Platform κ) (r : Relic κ) (settings : List (Option (Setting κ))) (files : String → Except Err Json) (disk : Disk) (x : κ)
    {doc : Json} (hf : files r.from = .ok doc) {p : List String} {k : Json.Kind} (hp : Expected p k) (h : ¬ (doc.under p).Fits k) :
    let rep := walkResumeAny P (.relic r) settings files disk x
    rep.verdict = .unbuilt (.load .syntax) ∧ rep.Untouched x := by
  have hr : Rejected doc := by
    cases hp with
    | field hp => exact reject_field hp h
    | @definition p q k hp hq =>
      rw [under_append] at h
      obtain ⟨p', h1, h2⟩ := definition_place hp (misfit_definition hq h)
      exact reject_definition h1 h2
  have : unmarshalAny P (.ok doc) = .failed .syntax := by
    unfold unmarshalAny
    rcases hr with hr | hr | hr
    · simp [hr]
    · simp only [hr]
      split <;> rfl
    · simp only [hr]
      split
      · cases pointer decodeSaved (doc.get "Active") <;> rfl
      · rfl
  simp only [walkResumeAny, hf, resumePlatformAny, this]
  exact ⟨trivial, rfl, rfl, rfl⟩

/-- Places inside nested definitions, and values there that do not fit. -/
example :
    let doc : Json := .obj [("JO", .obj [("Filter", .obj [("Node", .obj [("Poly", .obj [("File", .obj [("Poly", .obj [("Directory", .obj [("pattern", .num 1)])])])])])])]),
      ("Active", .obj [("Metrics", .str "none"), ("Depth", .num (-1))])]
    Expected ["JO", "Filter", "Node", "Poly", "File", "Poly", "Directory", "pattern"] .text ∧
    ¬ (doc.under ["JO", "Filter", "Node", "Poly", "File", "Poly", "Directory", "pattern"]).Fits .text ∧
    Expected ["Active", "Metrics"] .object ∧ ¬ (doc.under ["Active", "Metrics"]).Fits .object ∧ (doc.under ["Active", "Depth"]).Fits .integer := by
  intro doc
  refine ⟨.definition (p := ["JO", "Filter", "Node", "Poly", "File", "Poly", "Directory"]) (.directory (p := ["JO", "Filter", "Node", "Poly", "File"])
    (.file (p := ["JO", "Filter", "Node"]) (.place (by decide)))) (by decide), id, .field (by decide), id, trivial⟩

end Traverse
