import Verif.Conform.Fixture
/- Generated from the tables of internal/feat/sampling/navigator-sample_test.go. -/
namespace Traverse.Conform

/-- navigator-sample_test.go:178, universal(slice): first, with 2 files. -/
example : Case.ok { disk := disk_retroEdm, tree := ["RETRO-WAVE"], sub := .universal, options := [.sampling { type := .slice, inReverse := false, files := 2 }], files := 8, dirs := 8, prohibited := ["cover.night-drive.jpg"], once := true } = true := by
  decide +kernel

/-- navigator-sample_test.go:197, universal(slice): first, with 2 directories. -/
example : Case.ok { disk := disk_retroEdm, tree := ["RETRO-WAVE"], sub := .universal, options := [.sampling { type := .slice, inReverse := false, dirs := 2 }], files := 11, dirs := 6, prohibited := ["Electric Youth"], once := true } = true := by
  decide +kernel

/-- navigator-sample_test.go:216, universal(slice): first, with 2 files and 2 directories. -/
example : Case.ok { disk := disk_retroEdm, tree := ["RETRO-WAVE"], sub := .universal, options := [.sampling { type := .slice, inReverse := false, files := 2, dirs := 2 }], files := 6, dirs := 6, prohibited := ["cover.night-drive.jpg", "Electric Youth"], once := true } = true := by
  decide +kernel

/-- navigator-sample_test.go:236, universal(filter): first, single file, first 2 directories. -/
example : Case.ok { disk := disk_retroEdm, tree := ["edm"], sub := .universal, options := [.sampling { type := .filter, inReverse := false, files := 1, dirs := 2 }, .filter { sample := some { type := .glob, scope := Scope.file, pattern := "*.flac" } } none], files := 7, dirs := 14, prohibited := ["02 - Swab.flac"], once := true } = true := by
  decide +kernel

/-- navigator-sample_test.go:263, universal(filter): first, single file, first 2 directories. -/
example : Case.ok { disk := disk_retroEdm, tree := ["edm"], sub := .universal, options := [.sampling { type := .filter, inReverse := false, files := 1, dirs := 2 }, .filter { sample := some { type := .regex, scope := Scope.file, pattern := "\\.flac$" } } none], files := 7, dirs := 14, prohibited := ["02 - Swab.flac"], once := true } = true := by
  decide +kernel

/-- navigator-sample_test.go:290, universal(filter): last, last single files, last 2 directories. -/
example : Case.ok { disk := disk_retroEdm, tree := ["edm"], sub := .universal, options := [.sampling { type := .filter, inReverse := true, files := 1, dirs := 2 }, .filter { sample := some { type := .glob, scope := Scope.file, pattern := "*.flac" } } none], files := 8, dirs := 15, prohibited := ["01 - Dre.flac"], once := true } = true := by
  decide +kernel

/-- navigator-sample_test.go:318, universal(filter): last, last single files, last 2 directories. -/
example : Case.ok { disk := disk_retroEdm, tree := ["edm"], sub := .universal, options := [.sampling { type := .filter, inReverse := true, files := 1, dirs := 2 }, .filter { sample := some { type := .regex, scope := Scope.file, pattern := "\\.flac$" } } none], files := 8, dirs := 15, prohibited := ["01 - Dre.flac"], once := true } = true := by
  decide +kernel

/-- navigator-sample_test.go:348, directories(slice): first, with 2 directories. -/
example : Case.ok { disk := disk_retroEdm, tree := ["RETRO-WAVE"], sub := .directories, options := [.sampling { type := .slice, inReverse := false, dirs := 2 }], dirs := 6, prohibited := ["Electric Youth"], once := true } = true := by
  decide +kernel

/-- navigator-sample_test.go:366, directories(slice): last, with last single directory. -/
example : Case.ok { disk := disk_retroEdm, tree := ["RETRO-WAVE"], sub := .directories, options := [.sampling { type := .slice, inReverse := true, dirs := 1 }], dirs := 3, prohibited := ["Chromatics"], once := true } = true := by
  decide +kernel

/-- navigator-sample_test.go:385, filtered directories(filter): first, with 2 directories that start with A. -/
example : Case.ok { disk := disk_retroEdm, tree := ["edm"], sub := .directories, options := [.sampling { type := .filter, inReverse := false, dirs := 2 }, .filter { sample := some { type := .glob, scope := Scope.directory, pattern := "A*" } } none], dirs := 3, prohibited := ["Tales Of Ephidrina"], once := true } = true := by
  decide +kernel

/-- navigator-sample_test.go:411, filtered directories(filter): first, with 2 directories that start with A. -/
example : Case.ok { disk := disk_retroEdm, tree := ["edm"], sub := .directories, options := [.sampling { type := .filter, inReverse := false, dirs := 2 }, .filter { sample := some { type := .regex, scope := Scope.directory, pattern := "^A" } } none], dirs := 3, prohibited := ["Tales Of Ephidrina"], once := true } = true := by
  decide +kernel

end Traverse.Conform
