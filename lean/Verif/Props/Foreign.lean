import Verif.Proofs.Foreign
import Verif.Props.Resumed
/-
**C71** Any file may be given as the one to resume from. `walkResumeAny P (.relic r) settings files disk x` is the call of Resume and Navigate, the contents of the
file `r.from` being whatever `files` says.
-/
namespace Traverse
variable {κ : Type}

section
variable (P : Platform κ) (r : Relic κ) (settings : List (Option (Setting κ))) (files : String → Except Err Json) (disk : Disk) (x : κ)

/-- Nothing was called, nothing was done. -/
def Report.Untouched (rep : Report κ) (x : κ) : Prop := rep.client = x ∧ rep.tape = [] ∧ rep.hits = []

/-- **C71, partial**: whatever is in the file, either an error is returned, or the session is resumed that `walkResume`, and with it all the other properties, is about, or there is a
panic; before an error or a panic nothing of the client's is called. Missing, because it is false: that a file that is not a saved session leads to an error; but there is no panic in
loading unless one of the two parts of the document is missing. -/
theorem C71_any_partial :
    let rep := walkResumeAny P (.relic r) settings files disk x
    ((∃ e, rep.verdict = .unbuilt e) ∧ rep.Untouched x) ∨
    (∃ fs, files r.from = .ok (.obj fs) ∧ Json.field fs "Active" ≠ .null ∧ Json.field fs "JO" ≠ .null ∧ rep = walkResume P (.relic r) settings files disk x) ∨
    (rep.verdict = .panic ∧ rep.Untouched x ∧ (files r.from = .ok .null ∨
      ∃ fs, files r.from = .ok (.obj fs) ∧ (Json.field fs "Active" = .null ∨ Json.field fs "JO" = .null))) := by
  intro rep
  have hrep : rep = match resumePlatformAny P r settings (files r.from) with
    | .failed e => { verdict := .unbuilt e, client := x, tape := [] }
    | .crash => { verdict := .panic, client := x, tape := [] }
    | .ok o a => (buildRest P a.sub (some r.strategy) o.afterwards).resume r.strategy (r.handler.getD (fun k _ => (k, .panic))) disk a x := rfl
  cases hf : files r.from with
  | error e =>
    rw [hf] at hrep
    exact .inl ⟨⟨_, by rw [hrep]; rfl⟩, by rw [hrep]; exact ⟨rfl, rfl, rfl⟩⟩
  | ok doc =>
    rw [hf] at hrep
    by_cases hst : (doc.isStruct && structsSaved (doc.get "Active") && structsOptions (doc.get "JO")) = true
    · have hst' := hst
      simp only [Bool.and_eq_true] at hst'
      have lacks : (doc.get "Active" = .null ∨ doc.get "JO" = .null) → doc = .null ∨
          ∃ fs, doc = .obj fs ∧ (Json.field fs "Active" = .null ∨ Json.field fs "JO" = .null) := by
        intro h
        cases doc with
        | null => exact .inl rfl
        | obj fs => exact .inr ⟨fs, rfl, by simpa only [Json.field_find] using h⟩
        | _ => exact absurd hst'.1.1 (by simp [Json.isStruct])
      have out : (doc.get "Active" = .null ∨ doc.get "JO" = .null) → (∃ e, resumePlatformAny P r settings (.ok doc) = .failed e) ∨
          resumePlatformAny P r settings (.ok doc) = .crash := by
        intro h
        simp only [resumePlatformAny, unmarshalAny, hst, if_true]
        cases hA : pointer decodeSaved (doc.get "Active") with
        | none => exact .inl ⟨_, rfl⟩
        | some s =>
          cases hJ : pointer decodeOptions (doc.get "JO") with
          | none => exact .inl ⟨_, rfl⟩
          | some j =>
            cases j with
            | none => exact .inr rfl
            | some j =>
              have hjn : doc.get "JO" ≠ .null := by
                intro h
                rw [h] at hJ
                cases hJ
              rcases h with h | h
              · rw [h] at hA
                cases hA
                simp only
                cases comparisonEquals (some (fromJSON P j)) (some j) with
                | some f => exact .inl ⟨_, rfl⟩
                | none =>
                  simp only
                  rcases bindOptions (fromJSON P j) settings with ⟨o, _ | e⟩
                  · exact .inr rfl
                  · exact .inl ⟨_, rfl⟩
              · exact absurd h hjn
      by_cases hpart : doc.get "Active" = .null ∨ doc.get "JO" = .null
      · rcases out hpart with ⟨e, h⟩ | h
        · rw [h] at hrep
          exact .inl ⟨⟨_, by rw [hrep]⟩, by rw [hrep]; exact ⟨rfl, rfl, rfl⟩⟩
        · rw [h] at hrep
          refine .inr (.inr ⟨by rw [hrep], by rw [hrep]; exact ⟨rfl, rfl, rfl⟩, ?_⟩)
          rcases lacks hpart with h | ⟨fs, h, h'⟩
          · exact .inl (by rw [h])
          · exact .inr ⟨fs, by rw [h], h'⟩
      · have h4 : doc.get "Active" ≠ .null := fun h => hpart (.inl h)
        have h5 : doc.get "JO" ≠ .null := fun h => hpart (.inr h)
        rw [resumePlatformAny_whole P r settings hst'.1.1 hst'.1.2 hst'.2 h4 h5] at hrep
        cases doc with
        | obj fs =>
          refine .inr (.inl ⟨fs, rfl, by rw [Json.field_find]; exact h4, by rw [Json.field_find]; exact h5, ?_⟩)
          rw [hrep, walkResume, hf]
          rcases resumePlatform P r settings (.ok (.obj fs)) with e | ⟨o, a⟩ <;> rfl
        | _ => exact absurd rfl h4
    · have : resumePlatformAny P r settings (.ok doc) = .failed (.load .syntax) := by
        simp only [resumePlatformAny, unmarshalAny, if_neg hst]
      rw [this] at hrep
      exact .inl ⟨⟨_, by rw [hrep]⟩, by rw [hrep]; exact ⟨rfl, rfl, rfl⟩⟩

/-- **C71** A file that cannot be read: its error. -/
theorem C71_unreadable (e : Err) (h : files r.from = .error e) :
    let rep := walkResumeAny P (.relic r) settings files disk x
    rep.verdict = .unbuilt (.load (.io e)) ∧ rep.Untouched x := by
  simp only [walkResumeAny, h, resumePlatformAny, unmarshalAny]
  exact ⟨trivial, rfl, rfl, rfl⟩

/-- **C71** Files that say the same are resumed alike: the order of the fields, fields nobody knows, and fields left out that are zero, false or empty make no difference, at any depth of the document. -/
theorem C71_alike {doc doc' : Json} (h : Json.SaysAs doc doc') (files' : String → Except Err Json) (h1 : files r.from = .ok doc) (h2 : files' r.from = .ok doc') :
    walkResumeAny P (.relic r) settings files disk x = walkResumeAny P (.relic r) settings files' disk x := by
  simp only [walkResumeAny, resumePlatformAny, h1, h2, h.unmarshalAny]

/-- **C71** A file that Marshal wrote, or one that says the same, is resumed as all the other properties say. -/
theorem C71_written {o : Options κ} {s : Saved} {doc doc' : Json} (h : marshal o s = .ok doc) (hlike : Json.SaysAs doc doc') (hf : files r.from = .ok doc') :
    walkResumeAny P (.relic r) settings files disk x = walkResume P (.relic r) settings (fun _ => .ok doc) disk x := by
  rw [← C71_alike P r settings (fun _ => .ok doc) disk x hlike files rfl hf]
  simp only [marshal] at h
  cases hc : comparisonEquals (some o) (some (toJSON o)) with
  | some f => rw [hc] at h; cases h
  | none =>
    rw [hc] at h
    cases h
    simp only [walkResumeAny, walkResume]
    rw [resumePlatformAny_whole]
    · rcases resumePlatform P r settings _ with e | ⟨o, a⟩ <;> rfl
    · rfl
    · simpa using structsSaved_encode s
    · simpa using structsOptions_encode (toJSON o)
    · simp [Saved.encode]
    · simp [JOptions.encode]

/-- **C71** A value that is not an object, where the document or one of its parts should be: an error. -/
theorem C71_wrong_type {doc : Json} (h : files r.from = .ok doc) (hw : (doc ≠ .null ∧ ∀ fs, doc ≠ .obj fs) ∨
      ∃ fs k, doc = .obj fs ∧ (k = "Active" ∨ k = "JO") ∧ Json.field fs k ≠ .null ∧ ∀ gs, Json.field fs k ≠ .obj gs) :
    let rep := walkResumeAny P (.relic r) settings files disk x
    rep.verdict = .unbuilt (.load .syntax) ∧ rep.Untouched x := by
  have not : ∀ j : Json, j ≠ .null → (∀ fs, j ≠ .obj fs) → j.isStruct = false := by
    intro j h1 h2
    cases j <;> first | rfl | exact absurd rfl h1 | exact absurd rfl (h2 _)
  have hst : (doc.isStruct && structsSaved (doc.get "Active") && structsOptions (doc.get "JO")) = false := by
    rcases hw with ⟨h1, h2⟩ | ⟨fs, k, rfl, hk, h1, h2⟩
    · simp [not doc h1 h2]
    · rw [Json.field_find] at h1
      have := not _ h1 (fun gs => by rw [← Json.field_find]; exact h2 gs)
      rcases hk with rfl | rfl
      · simp [structsSaved, this]
      · simp [structsOptions, this]
  simp only [walkResumeAny, h, resumePlatformAny, unmarshalAny, hst, Bool.false_eq_true, if_false]
  exact ⟨trivial, rfl, rfl, rfl⟩

/-- **C71, what is false**: a document without options, even an empty one or null, is not rejected: Resume panics, and so it does on a document with options and without state. -/
theorem C71_panics {fs : List (String × Json)} (hJ : Json.field fs "JO" = .null) (hA : Json.field fs "Active" = .null) (hf : files r.from = .ok (.obj fs) ∨ files r.from = .ok .null) :
    (walkResumeAny P (.relic r) settings files disk x).verdict = .panic := by
  have key : ∀ doc : Json, doc.isStruct = true → doc.get "Active" = .null → doc.get "JO" = .null → resumePlatformAny P r settings (.ok doc) = .crash := by
    intro doc h1 h2 h3
    simp only [resumePlatformAny, unmarshalAny, h1, h2, h3]
    rfl
  rcases hf with hf | hf
  · rw [Json.field_find] at hJ hA
    simp only [walkResumeAny, hf, key _ rfl hA hJ]
  · simp only [walkResumeAny, hf, key .null rfl rfl rfl]

theorem C71_panics_stateless {o : Options κ} (hc : comparisonEquals (some (fromJSON P (toJSON o))) (some (toJSON o)) = none)
    (hs : (bindOptions (fromJSON P (toJSON o)) settings).2 = none) (hf : files r.from = .ok (.obj [("JO", (toJSON o).encode)])) :
    (walkResumeAny P (.relic r) settings files disk x).verdict = .panic := by
  have h1 : pointer decodeOptions (toJSON o).encode = some (some (toJSON o)) := by
    rw [pointer_some _ (by simp [JOptions.encode]), decodeOptions_encode]
    rfl
  have h2 : structsSaved .null = true := rfl
  have h3 : ∀ gs, (Json.obj gs).isStruct = true := fun _ => rfl
  have h4 : pointer decodeSaved .null = some none := rfl
  have : resumePlatformAny P r settings (.ok (.obj [("JO", (toJSON o).encode)])) = .crash := by
    simp [resumePlatformAny, unmarshalAny, h1, h2, h3, h4, hc, structsOptions_encode]
    rcases hb : bindOptions (fromJSON P (toJSON o)) settings with ⟨o', _ | e⟩
    · rfl
    · rw [hb] at hs; cases hs
  simp only [walkResumeAny, hf, this]

end

/-! ### Not vacuous -/

/-- Equality of values that are not objects. -/
def Json.sameValue : Json → Json → Bool
  | .null, .null => true
  | .bool a, .bool b => decide (a = b)
  | .num a, .num b => decide (a = b)
  | .str a, .str b => decide (a = b)
  | .path a, .path b => decide (a = b)
  | _, _ => false

theorem Json.sameValue_eq {a b : Json} (h : a.sameValue b = true) : a = b := by
  cases a <;> cases b <;> simp_all [Json.sameValue]

/-- A test for `Json.SaysAs`. -/
def alikeTest : Nat → Json → Json → Bool
  | n + 1, .obj fs, .obj gs => structKeys.all (fun k => alikeTest n (Json.field fs k) (Json.field gs k)) &&
      scalarKeys.all fun kz => (Json.field fs kz.1).sameValue (Json.field gs kz.1) || ((Json.field fs kz.1).sameValue .null && (Json.field gs kz.1).sameValue kz.2) ||
        ((Json.field fs kz.1).sameValue kz.2 && (Json.field gs kz.1).sameValue .null)
  | _, a, b => a.sameValue b

theorem alikeTest_alike (n : Nat) : ∀ {a b : Json}, alikeTest n a b = true → Json.SaysAs a b := by
  induction n with
  | zero =>
    intro a b h
    rw [alikeTest.eq_def] at h
    rw [Json.sameValue_eq h]
    exact .same _
  | succ n ih =>
    intro a b h
    by_cases ho : ∃ fs gs, a = .obj fs ∧ b = .obj gs
    · obtain ⟨fs, gs, rfl, rfl⟩ := ho
      rw [alikeTest, Bool.and_eq_true, List.all_eq_true, List.all_eq_true] at h
      refine .fields (fun k hk => ih (h.1 k hk)) (fun kz hkz => ?_)
      have := h.2 kz hkz
      simp only [Bool.or_eq_true, Bool.and_eq_true] at this
      rcases this with (h | ⟨h, h'⟩) | ⟨h, h'⟩
      · exact .inl (Json.sameValue_eq h)
      · exact .inr (.inl ⟨Json.sameValue_eq h, Json.sameValue_eq h'⟩)
      · exact .inr (.inr ⟨Json.sameValue_eq h, Json.sameValue_eq h'⟩)
    · have : a.sameValue b = true := by
        cases a <;> cases b <;> first | exact h | exact absurd ⟨_, _, rfl, rfl⟩ ho
      rw [Json.sameValue_eq this]
      exact .same _

/-- A saved session, as another program might have written it: fields in another order, zero fields left out, one field more. -/
example :
    let doc : Json := .obj [("Active", .obj [("Tree", .path ["r"]), ("Subscription", .num 4), ("CurrentPath", .path ["r", "a"]), ("IsDir", .bool false), ("Depth", .num 1)]),
      ("JO", .obj [("Behaviours", .obj [("Sort", .obj [("IsCaseSensitive", .bool true), ("SortFilesFirst", .bool false)])])])]
    let doc' : Json := .obj [("version", .str "2"), ("JO", .obj [("Behaviours", .obj [("Sort", .obj [("IsCaseSensitive", .bool true)])])]),
      ("Active", .obj [("Depth", .num 1), ("CurrentPath", .path ["r", "a"]), ("Subscription", .num 4), ("Tree", .path ["r"])])]
    Json.SaysAs doc doc' := by
  intro doc doc'
  exact alikeTest_alike 4 (by decide +kernel)

/-- It is resumed, and what it says counts; a document without options panics, so does one without state, and a number for the options is an error. -/
example :
    let doc' : Json := .obj [("version", .str "2"), ("JO", .obj [("Behaviours", .obj [("Sort", .obj [("IsCaseSensitive", .bool true)])])]),
      ("Active", .obj [("Depth", .num 1), ("CurrentPath", .path ["r", "c"]), ("Subscription", .num 4), ("Tree", .path ["r"])])]
    let go (doc : Json) := walkResumeAny sortPlatform (.relic (Demo.relic .spawn Demo.quiet)) [] (fun _ => .ok doc) (diskOf [] Demo.fs) 0
    (go doc').verdict = .done none ∧ (go doc').nodes.map (fun n => n.path) = [["r", "c"], ["r", "c", "w"], ["r", "f"], ["r", "g"]] ∧
    (go (.obj [])).verdict = .panic ∧ (go (.obj [("JO", .obj [])])).verdict = .panic ∧ (go (.obj [("Active", .obj [("Tree", .path ["r"])])])).verdict = .panic ∧
    (go (.obj [("JO", .num 1)])).verdict = .unbuilt (.load .syntax) ∧ (go (.obj [("JO", .obj [("Filter", .obj [("Node", .str "x")])])])).verdict = .unbuilt (.load .syntax) := by
  decide +kernel

/-- What `C71_written` and `C71_panics_stateless` assume is so of the defaults. -/
example : (∃ doc, marshal (defaultOptions sortPlatform) (savedAt ["r"] ["r", "a"] .universal) = .ok doc) ∧
    comparisonEquals (some (fromJSON sortPlatform (toJSON (defaultOptions sortPlatform)))) (some (toJSON (defaultOptions sortPlatform))) = none ∧
    (bindOptions (fromJSON sortPlatform (toJSON (defaultOptions sortPlatform))) []).2 = none := by
  obtain ⟨doc, h1, -⟩ := roundTrip sortPlatform (defaultOptions sortPlatform) (savedAt ["r"] ["r", "a"] .universal)
  exact ⟨⟨doc, h1⟩, by decide +kernel, by decide +kernel⟩

end Traverse
