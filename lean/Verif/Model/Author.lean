import Verif.Model.Resume
/-
Where the state of an interrupted session goes: internal/kernel/author.go, and the default panic handler that calls it
(pref/defaults.go:89-91, navigator-agent.go:204-210).
-/
namespace Traverse
variable {κ : Type}

/-- What saving needs of the machine: nef.ResolvePath, the path calculator's Join, core.ResumeTail, the clock as a time stamp
(core.Now with core.FileSystemTimeFormat), and the resume file system forest.R: MakeDirAll, WriteFile, ReadFile. It is part of the
client's world `κ`, which clock and files depend on. (author.go:18-63, core/core-defs.go:114-145, marshaler.go:75, 81.) -/
structure Drive (κ : Type) where
  resolve : String → String
  join : String → String → String
  tail : String
  stamp : κ → String
  makeDirAll : κ → String → κ × Option Err
  write : κ → String → Json → κ × Option Err
  read : κ → String → Except Err Json

/-- author.destination (author.go:49-63): directory and file name. `mag` is the facade's magnitude ("prime" or "resume",
pref/facade.go:135-137, 151-153), the cause is always a panic (navigator-agent.go:118-124). -/
def Drive.destination (D : Drive κ) (admin mag : String) (k : κ) : String × String :=
  let dir := D.resolve admin
  let dir := if D.tail.toList.isSuffixOf dir.toList then dir else D.join dir D.tail
  (dir, mag ++ "." ++ "panic" ++ "." ++ D.stamp k ++ ".json")

/-- author.write (author.go:18-47) with the session's options `o` and file systems that are relative or not: where the state was
saved, or why it was not. Permissions are left out. That the options do not compare equal with what is written of them does not
happen (C44); it is an error without a name here. -/
def Drive.author (D : Drive κ) (mag : String) (o : Options κ) (t r : Bool) (k : κ) (a : Active) : κ × Rescue :=
  let d := D.destination o.adminPath mag k
  match D.makeDirAll k d.1 with
  | (k, some e) => (k, .failed e)
  | (k, none) =>
    match marshal o ⟨a, t, r⟩ with
    | .error _ => (k, .failed (.code 0))
    | .ok doc =>
      match D.write k (D.join d.1 d.2) doc with
      | (k, some e) => (k, .failed e)
      | (k, none) => (k, .saved (D.join d.1 d.2))

/-- Sessions of one traversal, one after the other: each goes on, with the next handler, where the one before was saved; `again` is
the session that resumes from a file. Ends with the first that was not saved. (factories.go:20-71, pref/facade.go:60-68.) -/
def saga (again : (κ → Parcel → κ × Reply) → String → κ → Report κ) : Report κ → List (κ → Parcel → κ × Reply) → List (Report κ)
  | _, [] => []
  | rep, h :: hs =>
    match rep.verdict with
    | .done (some (.saved file)) => again h file rep.client :: saga again (again h file rep.client) hs
    | _ => []

/-- age.Walk().Configure().Extent(age.Resume(&Relic{Head{Handler: h}, From: file, Strategy}, settings...)).Navigate(ctx), the files
being those of the drive. (factories.go:20-71, pref/facade.go:60-68.) -/
def walkOn (P : Platform κ) (D : Drive κ) (r : Relic κ) (settings : List (Option (Setting κ))) (disk : Disk)
    (h : κ → Parcel → κ × Reply) (file : String) (k : κ) : Report κ :=
  walkResume P (.relic { r with handler := some h, «from» := file }) settings (D.read k) disk k

end Traverse
