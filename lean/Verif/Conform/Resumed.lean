import Verif.Conform.Fixture
/- Generated from the tables of internal/feat/resume/resume_test.go, and by hand from save_test.go and resume-error_test.go there. -/
namespace Traverse.Conform

/-- resume_test.go:172, universal: listen pending, fastward. -/
example : Again.ok { doc := document ["RETRO-WAVE"] ["RETRO-WAVE", "College", "Teenage Color"] (true, false) 4 1 2, strategy := .fastward, mandatory := ["Electric Youth", "Innerworld", "vinyl-info.innerworld.txt", "A1 - Before Life.flac", "A2 - Runaway.flac"], prohibited := skipped } = true := by
  decide +kernel

/-- resume_test.go:172, universal: listen pending, spawn. -/
example : Again.ok { doc := document ["RETRO-WAVE"] ["RETRO-WAVE", "College", "Teenage Color"] (true, false) 4 1 2, strategy := .spawn, mandatory := ["Electric Youth", "Innerworld", "vinyl-info.innerworld.txt", "A1 - Before Life.flac", "A2 - Runaway.flac"], prohibited := [] } = true := by
  decide +kernel

/-- resume_test.go:188, universal: listen active, fastward. -/
example : Again.ok { doc := document ["RETRO-WAVE"] ["RETRO-WAVE", "College", "Teenage Color"] (true, false) 4 2 2, strategy := .fastward, mandatory := ["Electric Youth", "Innerworld", "A1 - Can You Kiss Me First.flac", "A2 - Teenage Color.flac", "A1 - Before Life.flac", "A2 - Runaway.flac", "vinyl-info.teenage-color.txt", "vinyl-info.innerworld.txt"], prohibited := skipped } = true := by
  decide +kernel

/-- resume_test.go:188, universal: listen active, spawn. -/
example : Again.ok { doc := document ["RETRO-WAVE"] ["RETRO-WAVE", "College", "Teenage Color"] (true, false) 4 2 2, strategy := .spawn, mandatory := ["Electric Youth", "Innerworld", "A1 - Can You Kiss Me First.flac", "A2 - Teenage Color.flac", "A1 - Before Life.flac", "A2 - Runaway.flac", "vinyl-info.teenage-color.txt", "vinyl-info.innerworld.txt"], prohibited := [] } = true := by
  decide +kernel

/-- resume_test.go:211, folders: listen pending, fastward. -/
example : Again.ok { doc := document ["RETRO-WAVE"] ["RETRO-WAVE", "College", "Teenage Color"] (true, false) 2 1 2, strategy := .fastward, mandatory := ["Electric Youth", "Innerworld"], prohibited := skipped } = true := by
  decide +kernel

/-- resume_test.go:211, folders: listen pending, spawn. -/
example : Again.ok { doc := document ["RETRO-WAVE"] ["RETRO-WAVE", "College", "Teenage Color"] (true, false) 2 1 2, strategy := .spawn, mandatory := ["Electric Youth", "Innerworld"], prohibited := [] } = true := by
  decide +kernel

/-- resume_test.go:227, folders: listen active, fastward. -/
example : Again.ok { doc := document ["RETRO-WAVE"] ["RETRO-WAVE", "College", "Teenage Color"] (true, false) 2 2 2, strategy := .fastward, mandatory := ["Teenage Color", "Electric Youth", "Innerworld"], prohibited := skipped } = true := by
  decide +kernel

/-- resume_test.go:227, folders: listen active, spawn. -/
example : Again.ok { doc := document ["RETRO-WAVE"] ["RETRO-WAVE", "College", "Teenage Color"] (true, false) 2 2 2, strategy := .spawn, mandatory := ["Teenage Color", "Electric Youth", "Innerworld"], prohibited := [] } = true := by
  decide +kernel

/-- resume_test.go:243, files: listen pending, fastward. -/
example : Again.ok { doc := document ["RETRO-WAVE"] ["RETRO-WAVE", "College", "Teenage Color", "A1 - Can You Kiss Me First.flac"] (true, false) 1 1 2, strategy := .fastward, mandatory := ["A1 - Before Life.flac", "A2 - Runaway.flac", "vinyl-info.innerworld.txt"], prohibited := skipped } = true := by
  decide +kernel

/-- resume_test.go:243, files: listen pending, spawn. -/
example : Again.ok { doc := document ["RETRO-WAVE"] ["RETRO-WAVE", "College", "Teenage Color", "A1 - Can You Kiss Me First.flac"] (true, false) 1 1 2, strategy := .spawn, mandatory := ["A1 - Before Life.flac", "A2 - Runaway.flac", "vinyl-info.innerworld.txt"], prohibited := [] } = true := by
  decide +kernel

/-- resume_test.go:259, files: listen active, fastward. -/
example : Again.ok { doc := document ["RETRO-WAVE"] ["RETRO-WAVE", "College", "Teenage Color", "A1 - Can You Kiss Me First.flac"] (true, false) 1 2 2, strategy := .fastward, mandatory := ["A1 - Can You Kiss Me First.flac", "A2 - Teenage Color.flac", "A1 - Before Life.flac", "A2 - Runaway.flac", "vinyl-info.teenage-color.txt", "vinyl-info.innerworld.txt"], prohibited := skipped } = true := by
  decide +kernel

/-- resume_test.go:259, files: listen active, spawn. -/
example : Again.ok { doc := document ["RETRO-WAVE"] ["RETRO-WAVE", "College", "Teenage Color", "A1 - Can You Kiss Me First.flac"] (true, false) 1 2 2, strategy := .spawn, mandatory := ["A1 - Can You Kiss Me First.flac", "A2 - Teenage Color.flac", "A1 - Before Life.flac", "A2 - Runaway.flac", "vinyl-info.teenage-color.txt", "vinyl-info.innerworld.txt"], prohibited := [] } = true := by
  decide +kernel

/-- resume_test.go:277, universal: listen not active/deaf, fastward. -/
example : Again.ok { doc := document ["RETRO-WAVE"] ["RETRO-WAVE", "College", "Teenage Color"] (true, false) 4 3 2, strategy := .fastward, mandatory := ["Electric Youth", "A1 - Can You Kiss Me First.flac", "A2 - Teenage Color.flac", "A1 - Before Life.flac", "A2 - Runaway.flac"], prohibited := skipped } = true := by
  decide +kernel

/-- resume_test.go:277, universal: listen not active/deaf, spawn. -/
example : Again.ok { doc := document ["RETRO-WAVE"] ["RETRO-WAVE", "College", "Teenage Color"] (true, false) 4 3 2, strategy := .spawn, mandatory := ["Electric Youth", "A1 - Can You Kiss Me First.flac", "A2 - Teenage Color.flac", "A1 - Before Life.flac", "A2 - Runaway.flac"], prohibited := [] } = true := by
  decide +kernel

/-- resume_test.go:292, folders: listen not active/deaf, fastward. -/
example : Again.ok { doc := document ["RETRO-WAVE"] ["RETRO-WAVE", "College", "Teenage Color"] (true, false) 2 3 2, strategy := .fastward, mandatory := ["Electric Youth"], prohibited := skipped } = true := by
  decide +kernel

/-- resume_test.go:292, folders: listen not active/deaf, spawn. -/
example : Again.ok { doc := document ["RETRO-WAVE"] ["RETRO-WAVE", "College", "Teenage Color"] (true, false) 2 3 2, strategy := .spawn, mandatory := ["Electric Youth"], prohibited := [] } = true := by
  decide +kernel

/-- resume_test.go:307, files: listen not active/deaf, fastward. -/
example : Again.ok { doc := document ["RETRO-WAVE"] ["RETRO-WAVE", "College", "Teenage Color", "A1 - Can You Kiss Me First.flac"] (true, false) 1 3 2, strategy := .fastward, mandatory := ["A1 - Can You Kiss Me First.flac", "A2 - Teenage Color.flac", "A1 - Before Life.flac", "A2 - Runaway.flac"], prohibited := skipped } = true := by
  decide +kernel

/-- resume_test.go:307, files: listen not active/deaf, spawn. -/
example : Again.ok { doc := document ["RETRO-WAVE"] ["RETRO-WAVE", "College", "Teenage Color", "A1 - Can You Kiss Me First.flac"] (true, false) 1 3 2, strategy := .spawn, mandatory := ["A1 - Can You Kiss Me First.flac", "A2 - Teenage Color.flac", "A1 - Before Life.flac", "A2 - Runaway.flac"], prohibited := [] } = true := by
  decide +kernel

/-- resume_test.go:324, universal: listen pending and filtered, fastward. -/
example : Again.ok { doc := document ["RETRO-WAVE"] ["RETRO-WAVE", "College", "Teenage Color"] (true, false) 4 1 2, strategy := .fastward, mandatory := ["Electric Youth", "A1 - Before Life.flac", "A2 - Runaway.flac"], prohibited := skipped } = true := by
  decide +kernel

/-- resume_test.go:324, universal: listen pending and filtered, spawn. -/
example : Again.ok { doc := document ["RETRO-WAVE"] ["RETRO-WAVE", "College", "Teenage Color"] (true, false) 4 1 2, strategy := .spawn, mandatory := ["Electric Youth", "A1 - Before Life.flac", "A2 - Runaway.flac"], prohibited := [] } = true := by
  decide +kernel

/-- resume_test.go:340, universal: listen active and filtered, fastward. -/
example : Again.ok { doc := document ["RETRO-WAVE"] ["RETRO-WAVE", "College", "Teenage Color"] (true, false) 4 2 2, strategy := .fastward, mandatory := ["Electric Youth", "A1 - Can You Kiss Me First.flac", "A2 - Teenage Color.flac", "A1 - Before Life.flac", "A2 - Runaway.flac"], prohibited := skipped } = true := by
  decide +kernel

/-- resume_test.go:340, universal: listen active and filtered, spawn. -/
example : Again.ok { doc := document ["RETRO-WAVE"] ["RETRO-WAVE", "College", "Teenage Color"] (true, false) 4 2 2, strategy := .spawn, mandatory := ["Electric Youth", "A1 - Can You Kiss Me First.flac", "A2 - Teenage Color.flac", "A1 - Before Life.flac", "A2 - Runaway.flac"], prohibited := [] } = true := by
  decide +kernel

/-- resume_test.go:356, folders: listen pending and filtered, fastward. -/
example : Again.ok { doc := document ["RETRO-WAVE"] ["RETRO-WAVE", "College", "Teenage Color"] (true, false) 2 1 2, strategy := .fastward, mandatory := ["Electric Youth"], prohibited := skipped } = true := by
  decide +kernel

/-- resume_test.go:356, folders: listen pending and filtered, spawn. -/
example : Again.ok { doc := document ["RETRO-WAVE"] ["RETRO-WAVE", "College", "Teenage Color"] (true, false) 2 1 2, strategy := .spawn, mandatory := ["Electric Youth"], prohibited := [] } = true := by
  decide +kernel

/-- resume_test.go:372, folders: listen active and filtered, fastward. -/
example : Again.ok { doc := document ["RETRO-WAVE"] ["RETRO-WAVE", "College", "Teenage Color"] (true, false) 2 2 2, strategy := .fastward, mandatory := ["Electric Youth"], prohibited := skipped } = true := by
  decide +kernel

/-- resume_test.go:372, folders: listen active and filtered, spawn. -/
example : Again.ok { doc := document ["RETRO-WAVE"] ["RETRO-WAVE", "College", "Teenage Color"] (true, false) 2 2 2, strategy := .spawn, mandatory := ["Electric Youth"], prohibited := [] } = true := by
  decide +kernel

/-- resume_test.go:388, files: listen pending and filtered, fastward. -/
example : Again.ok { doc := document ["RETRO-WAVE"] ["RETRO-WAVE", "College", "Teenage Color", "A1 - Can You Kiss Me First.flac"] (true, false) 1 1 2, strategy := .fastward, mandatory := ["A1 - Before Life.flac", "A2 - Runaway.flac"], prohibited := skipped } = true := by
  decide +kernel

/-- resume_test.go:388, files: listen pending and filtered, spawn. -/
example : Again.ok { doc := document ["RETRO-WAVE"] ["RETRO-WAVE", "College", "Teenage Color", "A1 - Can You Kiss Me First.flac"] (true, false) 1 1 2, strategy := .spawn, mandatory := ["A1 - Before Life.flac", "A2 - Runaway.flac"], prohibited := [] } = true := by
  decide +kernel

/-- resume_test.go:404, files: listen active and filtered, fastward. -/
example : Again.ok { doc := document ["RETRO-WAVE"] ["RETRO-WAVE", "College", "Teenage Color", "A1 - Can You Kiss Me First.flac"] (true, false) 1 2 2, strategy := .fastward, mandatory := ["A1 - Can You Kiss Me First.flac", "A2 - Teenage Color.flac", "A1 - Before Life.flac", "A2 - Runaway.flac"], prohibited := skipped } = true := by
  decide +kernel

/-- resume_test.go:404, files: listen active and filtered, spawn. -/
example : Again.ok { doc := document ["RETRO-WAVE"] ["RETRO-WAVE", "College", "Teenage Color", "A1 - Can You Kiss Me First.flac"] (true, false) 1 2 2, strategy := .spawn, mandatory := ["A1 - Can You Kiss Me First.flac", "A2 - Teenage Color.flac", "A1 - Before Life.flac", "A2 - Runaway.flac"], prohibited := [] } = true := by
  decide +kernel

/-- lab.PanicAt (internal/laboratory/callbacks.go:98-116). -/
def panicAt (name : String) (k : Nat) (p : Parcel) : Nat × Reply := if p.node.name = name then (k, .panic) else (k, .ok none)

/-- save_test.go:102-129, a prime session that panics: the error says so, and the state is saved. -/
example :
    (walkPrime platform (.using { tree := ["RETRO-WAVE"], sub := .directories, handler := some (panicAt "Teenage Color") }) [] disk_retro 0).verdict =
      .done (some (.saved "dest")) := by
  decide +kernel

/-- save_test.go:134-166, a fastward resume that panics; CurrentPath is only a name. -/
example :
    (walkResumeAny platform (.relic { handler := some (panicAt "Electric Youth"), «from» := "resume-state.json", strategy := .fastward, forest := some (fun _ => some (true, false)) })
      [] (fun _ => .ok (document ["RETRO-WAVE"] ["Northern Council"] (true, false) 4 1 3)) disk_retro 0).verdict = .done (some (.saved "dest")) := by
  decide +kernel

/-- A resume that should fail. -/
def failing (forest : Option (Bool × Bool)) (file : Except Err Json) : Verdict :=
  (walkResumeAny platform (.relic { handler := some (fun k _ => (k, .ok none)), «from» := "resume-state.json", strategy := .fastward, forest := some (fun _ => forest) })
    [] (fun _ => file) disk_retro 0).verdict

/-- resume-error_test.go:47-73, 75-112, 114-147: no such file, wrong kinds of file systems, no forest. -/
example :
    let doc (relative : Bool × Bool) := document ["RETRO-WAVE"] ["RETRO-WAVE", "College", "Teenage Color"] relative 4 1 3
    failing (some (true, false)) (.error (.code 2)) = .unbuilt (.load (.io (.code 2))) ∧
    failing (some (true, false)) (.ok (doc (false, false))) = .unbuilt .traverseFsMismatch ∧
    failing (some (true, false)) (.ok (doc (false, true))) = .unbuilt .traverseFsMismatch ∧
    failing (some (true, false)) (.ok (doc (true, true))) = .unbuilt .resumeFsMismatch ∧
    failing none (.ok (doc (true, false))) = .unbuilt .nilForest := by
  decide +kernel

/-- director-error_test.go:112-190, 220-257: sessions that cannot be built. -/
example :
    (walkPrime platform (.using { tree := ["tree"], handler := some (fun k _ => (k, .ok none)) }) [] disk_retro 0).verdict = .unbuilt .missingSubscription ∧
    (walkPrime platform (.using { tree := ["tree"], sub := .files, handler := some (fun k _ => (k, .ok none)) }) [some (fun o => (o, some (.code 9)))] disk_retro 0).verdict =
      .unbuilt (.option (.code 9)) ∧
    (walkResumeAny platform (.relic { handler := some (fun k _ => (k, .ok none)), «from» := "resume-state.json", strategy := .fastward })
      (settingsOf platform [some (.faultHandler (fun k _ _ => (k, none)))]) (fun _ => .ok (document ["test"] ["current"] (false, false) 0 1 3)) disk_retro 0).verdict =
      .unbuilt .missingSubscription ∧
    (walkPrime platform (.relic { handler := some (fun k _ => (k, .ok none)), «from» := "from" }) [] disk_retro 0).verdict = .unbuilt .wrongPrimaryFacade ∧
    (walkResumeAny platform (.using { tree := ["tree"], sub := .files, handler := some (fun k _ => (k, .ok none)) }) [] (fun _ => .error (.code 2)) disk_retro 0).verdict =
      .unbuilt .wrongResumeFacade := by
  decide +kernel

end Traverse.Conform
