import Verif.Conform.Fixture
/- Generated from the tables of internal/feat/sampling/navigator-sample_test.go. -/
namespace Traverse.Conform

/-- navigator-sample_test.go:437, filtered directories(filter): last, with single directory that start with A. -/
example : Case.ok { disk := disk_retroEdm, tree := ["edm"], sub := .directories, options := [.sampling { type := .filter, inReverse := true, dirs := 1 }, .filter { sample := some { type := .glob, scope := Scope.directory, pattern := "A*" } } none], dirs := 2, prohibited := ["Amorphous Androgynous"], once := true } = true := by
  decide +kernel

/-- navigator-sample_test.go:463, filtered directories(filter): last, with single directory that start with A. -/
example : Case.ok { disk := disk_retroEdm, tree := ["edm"], sub := .directories, options := [.sampling { type := .filter, inReverse := true, dirs := 1 }, .filter { sample := some { type := .regex, scope := Scope.directory, pattern := "^A" } } none], dirs := 2, prohibited := ["Amorphous Androgynous"], once := true } = true := by
  decide +kernel

/-- navigator-sample_test.go:491, directories with files(slice): first, with 2 directories. -/
example : Case.ok { disk := disk_retroEdm, tree := ["RETRO-WAVE"], sub := .directoriesWithFiles, options := [.sampling { type := .slice, inReverse := false, dirs := 2 }], dirs := 6, children := [("Night Drive", 4), ("Northern Council", 4), ("Teenage Color", 3)], prohibited := ["Electric Youth"], once := true } = true := by
  decide +kernel

/-- navigator-sample_test.go:514, directories with files(slice): last, with last single directory. -/
example : Case.ok { disk := disk_retroEdm, tree := ["RETRO-WAVE"], sub := .directoriesWithFiles, options := [.sampling { type := .slice, inReverse := true, dirs := 1 }], dirs := 3, children := [("Innerworld", 3)], prohibited := ["Chromatics"], once := true } = true := by
  decide +kernel

/-- navigator-sample_test.go:536, filtered directories with files(filter): last, with single directory that start with A. -/
example : Case.ok { disk := disk_retroEdm, tree := ["edm"], sub := .directoriesWithFiles, options := [.sampling { type := .filter, inReverse := true, dirs := 1 }, .filter { sample := some { type := .glob, scope := Scope.directory, pattern := "A*" } } none], dirs := 2, prohibited := ["Amorphous Androgynous"], once := true } = true := by
  decide +kernel

/-- navigator-sample_test.go:563, filtered directories with files(filter): last, with single directory that start with A. -/
example : Case.ok { disk := disk_retroEdm, tree := ["edm"], sub := .directoriesWithFiles, options := [.sampling { type := .filter, inReverse := true, dirs := 1 }, .filter { sample := some { type := .regex, scope := Scope.directory, pattern := "^A" } } none], dirs := 2, prohibited := ["Amorphous Androgynous"], once := true } = true := by
  decide +kernel

/-- navigator-sample_test.go:592, files(slice): first, with 2 files. -/
example : Case.ok { disk := disk_retroEdm, tree := ["RETRO-WAVE"], sub := .files, options := [.sampling { type := .slice, inReverse := false, files := 2 }], files := 8, prohibited := ["cover.night-drive.jpg"], once := true } = true := by
  decide +kernel

/-- navigator-sample_test.go:610, files(slice): last, with last single file. -/
example : Case.ok { disk := disk_retroEdm, tree := ["RETRO-WAVE"], sub := .files, options := [.sampling { type := .slice, inReverse := true, files := 1 }], files := 4, prohibited := ["A1 - The Telephone Call.flac"], once := true } = true := by
  decide +kernel

/-- navigator-sample_test.go:634, filtered files(filter): first, 2 files. -/
example : Case.ok { disk := disk_retroEdm, tree := ["edm", "ELECTRONICA"], sub := .files, options := [.sampling { type := .filter, inReverse := false, files := 2 }, .filter { sample := some { type := .glob, scope := Scope.file, pattern := "*.flac" } } none], files := 24, prohibited := ["03 - Mountain Goat.flac"], once := true } = true := by
  decide +kernel

/-- navigator-sample_test.go:659, filtered files(filter): first, 2 files. -/
example : Case.ok { disk := disk_retroEdm, tree := ["edm", "ELECTRONICA"], sub := .files, options := [.sampling { type := .filter, inReverse := false, files := 2 }, .filter { sample := some { type := .regex, scope := Scope.file, pattern := "\\.flac$" } } none], files := 24, prohibited := ["03 - Mountain Goat.flac"], once := true } = true := by
  decide +kernel

/-- navigator-sample_test.go:684, filtered files(filter): last, last 2 files. -/
example : Case.ok { disk := disk_retroEdm, tree := ["edm"], sub := .files, options := [.sampling { type := .filter, inReverse := true, files := 2 }, .filter { sample := some { type := .glob, scope := Scope.file, pattern := "*.flac" } } none], files := 42, prohibited := ["01 - Liquid Insects.flac"], once := true } = true := by
  decide +kernel

/-- navigator-sample_test.go:710, filtered files(filter): last, last 2 files. -/
example : Case.ok { disk := disk_retroEdm, tree := ["edm"], sub := .files, options := [.sampling { type := .filter, inReverse := true, files := 2 }, .filter { sample := some { type := .regex, scope := Scope.file, pattern := "\\.flac$" } } none], files := 42, prohibited := ["01 - Liquid Insects.flac"], once := true } = true := by
  decide +kernel

/-- navigator-sample_test.go:738, universal(custom): first, single file, 2 directories. -/
example : Case.ok { disk := disk_retroEdm, tree := ["edm"], sub := .universal, options := [.sampling { type := .custom, inReverse := false, files := 1, dirs := 2 }, .filter { sample := some { type := .custom, pattern := "", custom := some (ownSample "cover*" Scope.file) } } none], files := 7, dirs := 14, prohibited := ["02 - Swab.flac"], once := true } = true := by
  decide +kernel

/-- navigator-sample_test.go:767, filtered directories(custom): last, single directory that starts with A. -/
example : Case.ok { disk := disk_retroEdm, tree := ["edm"], sub := .directories, options := [.sampling { type := .custom, inReverse := true, dirs := 1 }, .filter { sample := some { type := .custom, pattern := "", custom := some (ownSample "A*" Scope.directory) } } none], dirs := 2, prohibited := ["Amorphous Androgynous"], once := true } = true := by
  decide +kernel

/-- navigator-sample_test.go:795, filtered files(custom): last, last 2 files. -/
example : Case.ok { disk := disk_retroEdm, tree := ["edm"], sub := .files, options := [.sampling { type := .custom, inReverse := true, files := 2 }, .filter { sample := some { type := .custom, pattern := "", custom := some (ownSample "*.flac" Scope.file) } } none], files := 42, prohibited := ["01 - Liquid Insects.flac"], once := true } = true := by
  decide +kernel

/-- navigator-sample_test.go:825, directory spec, without no of directories. -/
example : Case.ok { disk := disk_retroEdm, tree := ["edm", "ELECTRONICA"], sub := .files, options := [.sampling { type := .filter, inReverse := false, files := 2 }, .filter { sample := some { type := .glob, scope := Scope.directory, pattern := "*.flac" } } none], error := some .missingDirs, files := 24, prohibited := ["03 - Mountain Goat.flac"], once := true } = true := by
  decide +kernel

/-- navigator-sample_test.go:851, file spec, without no of files. -/
example : Case.ok { disk := disk_retroEdm, tree := ["edm", "ELECTRONICA"], sub := .files, options := [.sampling { type := .filter, inReverse := false, dirs := 2 }, .filter { sample := some { type := .glob, scope := Scope.file, pattern := "*.flac" } } none], error := some .missingFiles, files := 24, prohibited := ["03 - Mountain Goat.flac"], once := true } = true := by
  decide +kernel

/-- navigator-sample_test.go:877, custom filter not defined. -/
example : Case.ok { disk := disk_retroEdm, tree := ["edm"], sub := .universal, options := [.sampling { type := .custom, inReverse := false }, .filter { sample := some { type := .custom, pattern := "" } } none], error := some .nilFilter, once := true } = true := by
  decide +kernel

/-- navigator-sample_test.go:893, filter missing type. -/
example : Case.ok { disk := disk_retroEdm, tree := ["edm"], sub := .universal, options := [.sampling { type := .custom, inReverse := false }, .filter { sample := some { type := .undefined, pattern := "" } } none], error := some .missingType, once := true } = true := by
  decide +kernel

end Traverse.Conform
