import Verif.Model.Persist
/-
Round trips of the parts of the document.
-/
namespace Traverse
variable {κ : Type}

@[simp] theorem get_nil (k : String) : (Json.obj []).get k = .null := rfl
@[simp] theorem get_cons (k k' : String) (v : Json) (fs) :
    (Json.obj ((k', v) :: fs)).get k = if k' = k then v else (Json.obj fs).get k := by
  by_cases h : k' = k
  · simp [Json.get, List.find?, h]
  · have hb : (k' == k) = false := by simp [h]
    simp [Json.get, List.find?, h, hb]
@[simp] theorem asNat_nat (n : Nat) : (Json.nat n).asNat = some n := rfl
@[simp] theorem asBool_bool (b : Bool) : (Json.bool b).asBool = some b := rfl
@[simp] theorem asStr_str (s : String) : (Json.str s).asStr = some s := rfl
@[simp] theorem asPath_path (p : Path) : (Json.path p).asPath = some p := rfl
@[simp] theorem asInt_num (n : Int) : (Json.num n).asInt = some n := rfl
@[simp] theorem asScope_nat (s : Scope) : (Json.nat s.toNat).asScope = some s := by
  simp [Json.asScope]
@[simp] theorem filterType_code (t : FilterType) : FilterType.ofCode t.code = some t := by cases t <;> rfl
@[simp] theorem sampleType_code (t : SampleType) : SampleType.ofCode t.code = some t := by cases t <;> rfl
@[simp] theorem tri_code (t : Tri) : Tri.ofCode t.code = some t := by cases t <;> rfl
@[simp] theorem sub_code (t : Subscription) : Subscription.ofCode t.code = some t := by cases t <;> rfl
@[simp] theorem hib_code (t : Hib) : Hib.ofCode t.code = some t := by cases t <;> rfl

theorem readCore_fields (c : JFilterCore) (rest : List (String × Json)) : readCore (.obj (c.fields ++ rest)) = some c := by
  simp [readCore, JFilterCore.fields]

theorem getPoly_fields (c : JFilterCore) (v : Json) : (Json.obj (c.fields ++ [("Poly", v)])).get "Poly" = v := by
  simp [JFilterCore.fields]

/-- The nesting of Poly in Poly. -/
def JFilterDef.depth : JFilterDef → Nat
  | .plain _ => 1
  | .both _ f d => max f.depth d.depth + 1

theorem readDef_encode (d : JFilterDef) : ∀ n, d.depth ≤ n → readDef n d.encode = some d := by
  induction d with
  | plain c =>
    intro n h
    cases n with
    | zero => simp [JFilterDef.depth] at h
    | succ n =>
      simp [readDef, JFilterDef.encode, readCore_fields, getPoly_fields]
  | both c f d ihf ihd =>
    intro n h
    cases n with
    | zero => simp [JFilterDef.depth] at h
    | succ n =>
      have hf : f.depth ≤ n := by simp only [JFilterDef.depth] at h; omega
      have hd : d.depth ≤ n := by simp only [JFilterDef.depth] at h; omega
      simp [readDef, JFilterDef.encode, readCore_fields, getPoly_fields, ihf n hf, ihd n hd]

theorem heights_append (l r) : Json.height.heights (l ++ r) = max (Json.height.heights l) (Json.height.heights r) := by
  induction l with
  | nil => simp [Json.height.heights]
  | cons a l ih => simp only [List.cons_append, Json.height.heights, ih]; omega

theorem depth_le_height (d : JFilterDef) : d.depth ≤ d.encode.height := by
  induction d with
  | plain c => simp [JFilterDef.depth, JFilterDef.encode, Json.height]
  | both c f d ihf ihd =>
    simp only [JFilterDef.depth, JFilterDef.encode, Json.height, heights_append, Json.height.heights]
    omega

@[simp] theorem decodeDef_encode (d : JFilterDef) : decodeDef d.encode = some d :=
  readDef_encode d _ (depth_le_height d)

@[simp] theorem decodeChild_encode (d : JChildDef) : decodeChild d.encode = some d := by
  simp [decodeChild, JChildDef.encode]

@[simp] theorem decodePoly_encode (p : JFilterDef × JFilterDef) : decodePoly (encodePoly p) = some p := by
  simp [decodePoly, encodePoly]

theorem pointer_optional {α : Type} (enc : α → Json) (dec : Json → Option α) (h : ∀ a, dec (enc a) = some a)
    (hn : ∀ a, enc a ≠ .null) (a : Option α) : pointer dec (optional enc a) = some a := by
  cases a with
  | none => rfl
  | some a =>
    have := h a
    have hn := hn a
    simp only [optional]
    generalize enc a = j at *
    cases j <;> simp_all [pointer]

@[simp] theorem pointer_def (d : Option JFilterDef) : pointer decodeDef (optional JFilterDef.encode d) = some d :=
  pointer_optional _ _ decodeDef_encode (by intro a; cases a <;> simp [JFilterDef.encode]) d
@[simp] theorem pointer_child (d : Option JChildDef) : pointer decodeChild (optional JChildDef.encode d) = some d :=
  pointer_optional _ _ decodeChild_encode (by intro a; simp [JChildDef.encode]) d
@[simp] theorem pointer_poly (d) : pointer decodePoly (optional encodePoly d) = some d :=
  pointer_optional _ _ decodePoly_encode (by intro a; simp [encodePoly]) d
@[simp] theorem decodeSample_encode (d : JSampleDef) : decodeSample d.encode = some d := by
  simp [decodeSample, JSampleDef.encode]
@[simp] theorem pointer_sample (d) : pointer decodeSample (optional JSampleDef.encode d) = some d :=
  pointer_optional _ _ decodeSample_encode (by intro a; simp [JSampleDef.encode]) d

theorem decodeOptions_encode (o : JOptions) : decodeOptions o.encode = some o := by
  simp [decodeOptions, JOptions.encode]

theorem decodeMetrics_encode (m : Metrics) : decodeMetrics m.encode = some m := by
  simp only [decodeMetrics, Option.some.injEq]
  funext k
  have step : ∀ (ks : List Metric) (k : Metric),
      (Json.obj (ks.filterMap fun k => (m k).map fun n => (k.key, Json.obj [("T", .nat k.code), ("Counter", .nat n)]))).get k.key =
        if k ∈ ks then (match m k with | none => .null | some n => Json.obj [("T", .nat k.code), ("Counter", .nat n)]) else .null := by
    intro ks k
    induction ks with
    | nil => rfl
    | cons a ks ih =>
      by_cases hak : a = k
      · subst hak
        cases hm : m a with
        | none => simp [List.filterMap_cons, hm] at ih ⊢; rw [ih]
        | some n => simp [List.filterMap_cons, hm]
      · have hkey : a.key ≠ k.key := by
          intro h; apply hak; revert h; cases a <;> cases k <;> simp [Metric.key]
        have hka : k ≠ a := fun h => hak h.symm
        cases hm : m a with
        | none => simp [List.filterMap_cons, hm, hka] at ih ⊢; rw [ih]
        | some n => simp [List.filterMap_cons, hm, hkey, hka] at ih ⊢; rw [ih]
  have hk : k ∈ [Metric.filesInvoked, .filesFilteredOut, .dirsInvoked, .dirsFilteredOut, .childFound, .childFilteredOut] := by
    cases k <;> simp
  simp only [Metrics.encode]
  rw [step, if_pos hk]
  cases m k <;> simp

theorem decodeSaved_encode (s : Saved) : decodeSaved s.encode = some s := by
  simp [decodeSaved, Saved.encode, decodeMetrics_encode]

theorem core_ofJ_toJ (c : FilterCore) : c.toJ.ofJ = c := rfl
theorem core_toJ_ofJ (c : JFilterCore) : c.ofJ.toJ = c := rfl
@[simp] theorem def_ofJ_toJ (d : FilterDef) : d.toJ.ofJ = d := by
  induction d with
  | plain c => rfl
  | both c f d ihf ihd => simp [FilterDef.toJ, JFilterDef.ofJ, ihf, ihd, core_ofJ_toJ]
@[simp] theorem def_toJ_ofJ (d : JFilterDef) : d.ofJ.toJ = d := by
  induction d with
  | plain c => rfl
  | both c f d ihf ihd => simp [FilterDef.toJ, JFilterDef.ofJ, ihf, ihd, core_toJ_ofJ]

end Traverse
