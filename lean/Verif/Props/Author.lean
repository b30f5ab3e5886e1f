import Verif.Spec.Saga
import Verif.Props.Saga
/-
C18: where the state of an interrupted session is saved.
-/
namespace Traverse
variable {κ : Type}

/-- **C18, where.** If a session interrupted by a panic reports its state saved, then to a file whose name tells the kind of the
session, that a panic was the cause, and the time; in the configured admin directory, or the library's directory below that: exactly
one of them, so that the library's tail is there once. That directory was made first, and what was written is the session's state.
If it reports that it was not saved, the error is that of the file system. -/
theorem C18_where (D : Drive κ) (mag : String) (o : Options κ) (t r : Bool) (k : κ) (a : Active) :
    let admin := D.resolve o.adminPath
    let ends := D.tail.toList <:+ admin.toList
    let name := mag ++ ".panic." ++ D.stamp k ++ ".json"
    ∀ dir, (dir = if ends then admin else D.join admin D.tail) →
    (∀ k' dest, D.author mag o t r k a = (k', .saved dest) →
      dest = D.join dir name ∧
      ∃ k₁ doc, D.makeDirAll k dir = (k₁, none) ∧ marshal o ⟨a, t, r⟩ = .ok doc ∧ D.write k₁ dest doc = (k', none) ∧
        (D.Keeps → D.read k' dest = .ok doc)) ∧
    (∀ k' e, D.author mag o t r k a = (k', .failed e) →
      D.makeDirAll k dir = (k', some e) ∨
      ∃ k₁ doc, D.makeDirAll k dir = (k₁, none) ∧ D.write k₁ (D.join dir name) doc = (k', some e)) := by
  obtain ⟨doc₀, hmar⟩ : ∃ doc, marshal o ⟨a, t, r⟩ = .ok doc :=
    ⟨.obj [("Active", Saved.encode ⟨a, t, r⟩), ("JO", (toJSON o).encode)], by simp [marshal, comparisonEquals, toJSON_equal]⟩
  intro admin ends name dir hdir
  have hd : D.destination o.adminPath mag k = (dir, name) := by
    have h2 : mag ++ "." ++ "panic" ++ "." ++ D.stamp k ++ ".json" = name := by
      simp only [name, String.append_assoc]
      rfl
    simp only [Drive.destination, h2, hdir, Prod.mk.injEq, and_true]
    by_cases h : ends
    · rw [if_pos h, if_pos (List.isSuffixOf_iff_suffix.mpr h)]
    · rw [if_neg h, if_neg (fun h' => h (List.isSuffixOf_iff_suffix.mp h'))]
  constructor
  · intro k' dest hs
    simp only [Drive.author, hd] at hs
    rcases hm : D.makeDirAll k dir with ⟨k₁, _ | e⟩
    · rw [hm] at hs
      cases hj : marshal o ⟨a, t, r⟩ with
      | error x => rw [hj] at hs; simp at hs
      | ok doc =>
        rw [hj] at hs
        rcases hw : D.write k₁ (D.join dir name) doc with ⟨k₂, _ | e⟩
        · simp only [hw, Prod.mk.injEq, Rescue.saved.injEq] at hs
          obtain ⟨rfl, rfl⟩ := hs
          exact ⟨rfl, k₁, doc, rfl, rfl, hw, fun keeps => keeps _ _ _ _ hw⟩
        · simp [hw] at hs
    · rw [hm] at hs; simp at hs
  · intro k' e hs
    simp only [Drive.author, hd] at hs
    rcases hm : D.makeDirAll k dir with ⟨k₁, _ | e'⟩
    · right
      rw [hm] at hs
      cases hj : marshal o ⟨a, t, r⟩ with
      | error x => rw [hj] at hmar; cases hmar
      | ok doc =>
        rw [hj] at hs
        rcases hw : D.write k₁ (D.join dir name) doc with ⟨k₂, _ | e''⟩
        · simp [hw] at hs
        · simp only [hw, Prod.mk.injEq, Rescue.failed.injEq] at hs
          obtain ⟨rfl, rfl⟩ := hs
          exact ⟨k₁, doc, rfl, hw⟩
    · left
      rw [hm] at hs
      simp only [Prod.mk.injEq, Rescue.failed.injEq] at hs
      obtain ⟨rfl, rfl⟩ := hs
      rfl

/-- Not vacuous: an admin directory that is the library's directory already, and one that is not. -/
example : let o (admin : String) := { defaultOptions (Demo.host "prime") with adminPath := admin }
    let a : Active := { tree := ["r"], sub := .files, currentPath := ["r", "a"], isDir := true, depth := 1, metrics := fun _ => none, hibernation := .pending }
    (Demo.drive.author "resume" (o "/home/resume") false true [] a).2 = .saved "/home/resume/resume.panic..json" ∧
    (Demo.drive.author "prime" (o "/home") false true [("x", .null)] a).2 = .saved "/home/resume/prime.panic.i.json" ∧
    ((Demo.drive.author "prime" (o "/home") false true [("x", .null)] a).1.map (·.1)) = ["/home/resume/prime.panic.i.json", "x"] ∧
    ({ Demo.drive with makeDirAll := fun k _ => (k, some (.code 13)) }.author "prime" (o "/home") false true [] a).2 = .failed (.code 13) := by
  decide +kernel

end Traverse
