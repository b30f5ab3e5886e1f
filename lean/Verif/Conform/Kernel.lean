import Verif.Conform.Fixture
/- Generated from the tables of internal/kernel/navigator-vanilla_test.go, internal/kernel/navigator-cascade_test.go, internal/kernel/navigator-directories-with-files_test.go, internal/feat/hiber/hibernate_test.go, internal/feat/hiber/with-filter_test.go. -/
namespace Traverse.Conform

/-- navigator-vanilla_test.go:108, universal: Path is leaf. -/
example : Case.ok { disk := disk_retroMetal, tree := ["RETRO-WAVE", "Chromatics", "Night Drive"], sub := .universal, files := 4, dirs := 1 } = true := by
  decide +kernel

/-- navigator-vanilla_test.go:123, universal: Path contains directories. -/
example : Case.ok { disk := disk_retroMetal, tree := ["RETRO-WAVE"], sub := .universal, files := 14, dirs := 8 } = true := by
  decide +kernel

/-- navigator-vanilla_test.go:138, universal: Path contains directories (visit). -/
example : Case.ok { disk := disk_retroMetal, tree := ["RETRO-WAVE"], sub := .universal, files := 14, dirs := 8, visit := true } = true := by
  decide +kernel

/-- navigator-vanilla_test.go:154, universal: Path is Root. -/
example : Case.ok { disk := disk_retroMetal, tree := ["."], sub := .universal, counts := false } = true := by
  decide +kernel

/-- navigator-vanilla_test.go:168, directories: Path is leaf. -/
example : Case.ok { disk := disk_retroMetal, tree := ["RETRO-WAVE", "Chromatics", "Night Drive"], sub := .directories, dirs := 1 } = true := by
  decide +kernel

/-- navigator-vanilla_test.go:182, directories: Path contains directories. -/
example : Case.ok { disk := disk_retroMetal, tree := ["RETRO-WAVE"], sub := .directories, dirs := 8 } = true := by
  decide +kernel

/-- navigator-vanilla_test.go:196, directories: Path contains directories (check all invoked). -/
example : Case.ok { disk := disk_retroMetal, tree := ["RETRO-WAVE"], sub := .directories, dirs := 8, visit := true } = true := by
  decide +kernel

/-- navigator-vanilla_test.go:211, directories: case sensitive sort. -/
example : Case.ok { disk := disk_retroMetal, tree := ["rock", "metal"], sub := .directories, options := [.caseSensitiveSort], dirs := 41, before := some (["rock", "metal", "HARD-METAL"], ["rock", "metal", "dark"]) } = true := by
  decide +kernel

/-- navigator-vanilla_test.go:231, files: Path is leaf. -/
example : Case.ok { disk := disk_retroMetal, tree := ["RETRO-WAVE", "Chromatics", "Night Drive"], sub := .files, files := 4 } = true := by
  decide +kernel

/-- navigator-vanilla_test.go:246, files: Path contains directories. -/
example : Case.ok { disk := disk_retroMetal, tree := ["RETRO-WAVE"], sub := .files, files := 14 } = true := by
  decide +kernel

/-- navigator-vanilla_test.go:261, files: Path contains directories. -/
example : Case.ok { disk := disk_retroMetal, tree := ["RETRO-WAVE"], sub := .files, files := 14, visit := true } = true := by
  decide +kernel

/-- navigator-cascade_test.go:82, universal: Path contains folders only, no-recurse. -/
example : Case.ok { disk := disk_retro, tree := ["RETRO-WAVE"], sub := .universal, options := [.noRecurse], dirs := 4 } = true := by
  decide +kernel

/-- navigator-cascade_test.go:99, universal: Path contains files only, no-recurse. -/
example : Case.ok { disk := disk_retro, tree := ["RETRO-WAVE", "Chromatics", "Night Drive"], sub := .universal, options := [.noRecurse], files := 4, dirs := 1 } = true := by
  decide +kernel

/-- navigator-cascade_test.go:116, universal: Path contains folders only, depth=1. -/
example : Case.ok { disk := disk_retro, tree := ["RETRO-WAVE"], sub := .universal, options := [.depth 1], dirs := 4 } = true := by
  decide +kernel

/-- navigator-cascade_test.go:133, universal: Path contains folders only, depth=2. -/
example : Case.ok { disk := disk_retro, tree := ["RETRO-WAVE"], sub := .universal, options := [.depth 2], dirs := 8 } = true := by
  decide +kernel

/-- navigator-cascade_test.go:150, universal: Path contains folders only, depth=3. -/
example : Case.ok { disk := disk_retro, tree := ["RETRO-WAVE"], sub := .universal, options := [.depth 3], files := 14, dirs := 8 } = true := by
  decide +kernel

/-- navigator-cascade_test.go:169, universal: Path contains folders only, no-recurse. -/
example : Case.ok { disk := disk_retro, tree := ["RETRO-WAVE"], sub := .directories, options := [.noRecurse], dirs := 4 } = true := by
  decide +kernel

/-- navigator-cascade_test.go:186, universal: Path contains files only, no-recurse. -/
example : Case.ok { disk := disk_retro, tree := ["RETRO-WAVE", "Chromatics", "Night Drive"], sub := .directories, options := [.noRecurse], dirs := 1 } = true := by
  decide +kernel

/-- navigator-cascade_test.go:203, universal: Path contains folders only, depth=1. -/
example : Case.ok { disk := disk_retro, tree := ["RETRO-WAVE"], sub := .directories, options := [.depth 1], dirs := 4 } = true := by
  decide +kernel

/-- navigator-cascade_test.go:220, universal: Path contains folders only, depth=2. -/
example : Case.ok { disk := disk_retro, tree := ["RETRO-WAVE"], sub := .directories, options := [.depth 2], dirs := 8 } = true := by
  decide +kernel

/-- navigator-cascade_test.go:237, universal: Path contains folders only, depth=3. -/
example : Case.ok { disk := disk_retro, tree := ["RETRO-WAVE"], sub := .directories, options := [.depth 3], dirs := 8 } = true := by
  decide +kernel

/-- navigator-cascade_test.go:256, file: Path contains folders only, no-recurse. -/
example : Case.ok { disk := disk_retro, tree := ["RETRO-WAVE", "Chromatics", "Night Drive"], sub := .files, options := [.noRecurse], files := 4 } = true := by
  decide +kernel

/-- navigator-cascade_test.go:273, file: Path contains folders only, depth=1. -/
example : Case.ok { disk := disk_retro, tree := ["RETRO-WAVE", "Chromatics", "Night Drive"], sub := .files, options := [.depth 1], files := 4 } = true := by
  decide +kernel

/-- navigator-directories-with-files_test.go:88, directories(with files): Path is leaf. -/
example : Case.ok { disk := disk_retro, tree := ["RETRO-WAVE", "Chromatics", "Night Drive"], sub := .directoriesWithFiles, dirs := 1, children := [("Night Drive", 4)], once := true } = true := by
  decide +kernel

/-- navigator-directories-with-files_test.go:106, directories(with files): Path contains directories (check all invoked). -/
example : Case.ok { disk := disk_retro, tree := ["RETRO-WAVE"], sub := .directoriesWithFiles, dirs := 8, children := [("Night Drive", 4), ("Northern Council", 4), ("Teenage Color", 3), ("Innerworld", 3)], once := true, visit := true } = true := by
  decide +kernel

/-- hibernate_test.go:191, wake and sleep (directories, inclusive:default). -/
example : Case.ok { disk := disk_retroEdm, tree := ["RETRO-WAVE"], sub := .directories, options := [.hibernation { wakeAt := some (.plain { type := .glob, pattern := "Night Drive" }), sleepAt := some (.plain { type := .glob, pattern := "Electric Youth" }), inclusiveWake := true, inclusiveSleep := false }], dirs := 4, mandatory := ["Night Drive", "College", "Northern Council", "Teenage Color"], prohibited := ["RETRO-WAVE", "Chromatics", "Electric Youth", "Innerworld"], once := true } = true := by
  decide +kernel

/-- hibernate_test.go:227, wake and sleep (directories, excl:wake, inc:sleep, mute). -/
example : Case.ok { disk := disk_retroEdm, tree := ["RETRO-WAVE"], sub := .directories, options := [.hibernation { wakeAt := some (.plain { type := .regex, pattern := "Night Drive" }), sleepAt := some (.plain { type := .glob, pattern := "Electric Youth" }), inclusiveWake := false, inclusiveSleep := true }], dirs := 4, mandatory := ["College", "Northern Council", "Teenage Color", "Electric Youth"], prohibited := ["Night Drive", "RETRO-WAVE", "Chromatics", "Innerworld"], once := true } = true := by
  decide +kernel

/-- hibernate_test.go:265, wake only (directories, inclusive:default). -/
example : Case.ok { disk := disk_retroEdm, tree := ["RETRO-WAVE"], sub := .directories, options := [.hibernation { wakeAt := some (.plain { type := .regex, pattern := "Night Drive" }), sleepAt := none, inclusiveWake := true, inclusiveSleep := false }], dirs := 6, mandatory := ["Night Drive", "College", "Northern Council", "Teenage Color", "Electric Youth", "Innerworld"], prohibited := ["RETRO-WAVE", "Chromatics"], once := true } = true := by
  decide +kernel

/-- hibernate_test.go:293, sleep only (directories, inclusive:default). -/
example : Case.ok { disk := disk_retroEdm, tree := ["RETRO-WAVE"], sub := .directories, options := [.hibernation { wakeAt := none, sleepAt := some (.plain { type := .glob, pattern := "Electric Youth" }), inclusiveWake := true, inclusiveSleep := false }], dirs := 6, mandatory := ["RETRO-WAVE", "Chromatics", "Night Drive", "College", "Northern Council", "Teenage Color"], prohibited := ["Electric Youth", "Innerworld"], once := true } = true := by
  decide +kernel

/-- hibernate_test.go:322, sleep only (directories, inclusive:default). -/
example : Case.ok { disk := disk_retroEdm, tree := ["RETRO-WAVE"], sub := .directories, options := [.hibernation { wakeAt := none, sleepAt := some (.plain { type := .glob, pattern := "Night Drive" }), inclusiveWake := true, inclusiveSleep := false }], dirs := 2, mandatory := ["RETRO-WAVE", "Chromatics"], prohibited := ["Night Drive", "College", "Northern Council", "Teenage Color", "Electric Youth", "Innerworld"], once := true } = true := by
  decide +kernel

/-- hibernate_test.go:353, wake only (directories, inclusive:default). -/
example : Case.ok { disk := disk_retroEdm, tree := ["RETRO-WAVE"], sub := .directories, options := [.hibernation { wakeAt := some (.plain { type := .regex, pattern := "(" }), sleepAt := none, inclusiveWake := false, inclusiveSleep := false }], error := some .badRegex, mandatory := ["Night Drive", "College", "Northern Council", "Teenage Color", "Electric Youth", "Innerworld"], prohibited := ["RETRO-WAVE", "Chromatics"], once := true } = true := by
  decide +kernel

/-- hibernate_test.go:379, sleep only (directories, inclusive:default). -/
example : Case.ok { disk := disk_retroEdm, tree := ["RETRO-WAVE"], sub := .directories, options := [.hibernation { wakeAt := none, sleepAt := some (.plain { type := .regex, pattern := "(" }), inclusiveWake := false, inclusiveSleep := false }], error := some .badRegex, mandatory := ["RETRO-WAVE", "Chromatics", "Night Drive", "College", "Northern Council", "Teenage Color"], prohibited := ["Electric Youth", "Innerworld"], once := true } = true := by
  decide +kernel

/-- with-filter_test.go:115, File Subscription. -/
example : Case.ok { disk := disk_retroEdm, tree := ["RETRO-WAVE"], sub := .files, options := [.filter { node := some (.plain { type := .glob, pattern := "*.flac", scope := Scope.file }) } none, .filterWake (some (.plain { type := .glob, pattern := "A1 - Incident.flac" }))], files := 6 } = true := by
  decide +kernel

/-- with-filter_test.go:141, File Subscription. -/
example : Case.ok { disk := disk_retroEdm, tree := ["RETRO-WAVE"], sub := .files, options := [.filter { node := some (.plain { type := .glob, pattern := "*.flac", scope := Scope.file }) } none, .filterSleep (some (.plain { type := .glob, pattern := "A1 - Incident.flac" }))], files := 2 } = true := by
  decide +kernel

/-- with-filter_test.go:167, File Subscription. -/
example : Case.ok { disk := disk_retroEdm, tree := ["RETRO-WAVE"], sub := .files, options := [.filter { node := some (.plain { type := .glob, pattern := "*.flac", scope := Scope.file }) } none, .filterWake (some (.plain { type := .glob, pattern := "A1 - Incident.flac" })), .filterSleep (some (.plain { type := .glob, pattern := "A1 - Before Life.flac" }))], files := 4 } = true := by
  decide +kernel

end Traverse.Conform
