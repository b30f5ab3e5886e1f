import Verif.Conform.Fixture
/- Generated from the tables of internal/filtering/filter-glob_test.go, internal/filtering/filter-regex_test.go, internal/filtering/filter-poly_test.go, internal/filtering/filter-hybrid_test.go, internal/filtering/filter-custom_test.go, internal/filtering/filter-errata_test.go. -/
namespace Traverse.Conform

/-- filter-glob_test.go:157, universal(any scope): glob filter. -/
example : Case.ok { disk := disk_retro, tree := ["RETRO-WAVE"], sub := .universal, options := [.filter { node := some (.plain { type := .glob, pattern := "*.flac", scope := Scope.all }) } none], files := 8 } = true := by
  decide +kernel

/-- filter-glob_test.go:174, universal(any scope): glob filter (negate). -/
example : Case.ok { disk := disk_retro, tree := ["RETRO-WAVE"], sub := .universal, options := [.filter { node := some (.plain { type := .glob, pattern := "*.flac", scope := Scope.all, negate := true }) } none], files := 6, dirs := 8 } = true := by
  decide +kernel

/-- filter-glob_test.go:192, universal(undefined scope): glob filter. -/
example : Case.ok { disk := disk_retro, tree := ["RETRO-WAVE"], sub := .universal, options := [.filter { node := some (.plain { type := .glob, pattern := "*.flac" }) } none], files := 8 } = true := by
  decide +kernel

/-- filter-glob_test.go:210, universal(any scope): glob filter (ifNotApplicable=true). -/
example : Case.ok { disk := disk_retro, tree := ["RETRO-WAVE"], sub := .universal, options := [.filter { node := some (.plain { type := .glob, pattern := "*.flac", scope := Scope.leaf, ifNotApplicable := .yes }) } none], files := 8, dirs := 4, mandatory := ["A1 - Can You Kiss Me First.flac"] } = true := by
  decide +kernel

/-- filter-glob_test.go:229, universal(leaf scope): glob filter (ifNotApplicable=false). -/
example : Case.ok { disk := disk_retro, tree := ["RETRO-WAVE"], sub := .universal, options := [.filter { node := some (.plain { type := .glob, pattern := "*.flac", scope := Scope.leaf, ifNotApplicable := .no }) } none], files := 8, mandatory := ["A1 - Can You Kiss Me First.flac"], prohibited := ["vinyl-info.teenage-color"] } = true := by
  decide +kernel

/-- filter-regex_test.go:164, files(any scope): regex filter. -/
example : Case.ok { disk := disk_retroHouse, tree := ["RETRO-WAVE"], sub := .files, options := [.filter { node := some (.plain { type := .regex, pattern := "^vinyl", scope := Scope.all }) } none], files := 4 } = true := by
  decide +kernel

/-- filter-regex_test.go:181, files(any scope): regex filter (negate). -/
example : Case.ok { disk := disk_retroHouse, tree := ["RETRO-WAVE"], sub := .files, options := [.filter { node := some (.plain { type := .regex, pattern := "^vinyl", scope := Scope.all, negate := true }) } none], files := 10 } = true := by
  decide +kernel

/-- filter-regex_test.go:199, files(default to any scope): regex filter. -/
example : Case.ok { disk := disk_retroHouse, tree := ["RETRO-WAVE"], sub := .files, options := [.filter { node := some (.plain { type := .regex, pattern := "^vinyl" }) } none], files := 4 } = true := by
  decide +kernel

/-- filter-regex_test.go:217, directories(any scope): regex filter. -/
example : Case.ok { disk := disk_retroHouse, tree := ["RETRO-WAVE"], sub := .directories, options := [.filter { node := some (.plain { type := .regex, pattern := "^C", scope := Scope.all }) } none], dirs := 2 } = true := by
  decide +kernel

/-- filter-regex_test.go:234, directories(any scope): regex filter (negate). -/
example : Case.ok { disk := disk_retroHouse, tree := ["RETRO-WAVE"], sub := .directories, options := [.filter { node := some (.plain { type := .regex, pattern := "^C", scope := Scope.all, negate := true }) } none], dirs := 6 } = true := by
  decide +kernel

/-- filter-regex_test.go:252, directories(undefined scope): regex filter. -/
example : Case.ok { disk := disk_retroHouse, tree := ["RETRO-WAVE"], sub := .directories, options := [.filter { node := some (.plain { type := .regex, pattern := "^C" }) } none], dirs := 2 } = true := by
  decide +kernel

/-- filter-regex_test.go:270, directories(top): regex filter (ifNotApplicable=true). -/
example : Case.ok { disk := disk_retroHouse, tree := ["PROGRESSIVE-HOUSE"], sub := .directories, options := [.filter { node := some (.plain { type := .regex, pattern := "HOUSE", scope := Scope.top, ifNotApplicable := .yes }) } none], dirs := 10, mandatory := ["PROGRESSIVE-HOUSE"] } = true := by
  decide +kernel

/-- filter-regex_test.go:289, directories(top): regex filter (ifNotApplicable=false). -/
example : Case.ok { disk := disk_retroHouse, tree := ["."], sub := .directories, options := [.filter { node := some (.plain { type := .regex, pattern := "HOUSE", scope := Scope.top, ifNotApplicable := .no }) } none], dirs := 1, mandatory := ["PROGRESSIVE-HOUSE"], prohibited := ["Blue Amazon", "The Javelin"] } = true := by
  decide +kernel

/-- filter-regex_test.go:311, files(any scope): regex filter. -/
example : Case.ok { disk := disk_retroHouse, tree := ["RETRO-WAVE"], sub := .files, options := [.filter { node := some (.plain { type := .regex, pattern := "(", scope := Scope.all }) } none], error := some .badRegex } = true := by
  decide +kernel

/-- filter-poly_test.go:173, poly - files:regex; directories:glob. -/
example : Case.ok { disk := disk_retro, tree := ["RETRO-WAVE"], sub := .universal, options := [.filter { node := some (.both { type := .poly } (.plain { type := .regex, pattern := "^vinyl", scope := Scope.file }) (.plain { type := .glob, pattern := "*i*", scope := (Scope.directory ||| Scope.leaf) })) } none], files := 2, dirs := 8 } = true := by
  decide +kernel

/-- filter-poly_test.go:204, poly - files:regex; directories:regex. -/
example : Case.ok { disk := disk_retro, tree := ["RETRO-WAVE"], sub := .universal, options := [.filter { node := some (.both { type := .poly } (.plain { type := .regex, pattern := "^vinyl", scope := Scope.file }) (.plain { type := .regex, pattern := "[iI]", scope := (Scope.directory ||| Scope.leaf) })) } none], files := 3, dirs := 8 } = true := by
  decide +kernel

/-- filter-poly_test.go:234, poly(scopes omitted) - files:regex; directories:regex. -/
example : Case.ok { disk := disk_retro, tree := ["RETRO-WAVE"], sub := .universal, options := [.filter { node := some (.both { type := .poly } (.plain { type := .regex, pattern := "^vinyl" }) (.plain { type := .regex, pattern := "[iI]", scope := Scope.leaf })) } none], files := 3, dirs := 8 } = true := by
  decide +kernel

/-- filter-poly_test.go:261, poly(subscribe:files). -/
example : Case.ok { disk := disk_retro, tree := ["RETRO-WAVE"], sub := .files, options := [.filter { node := some (.both { type := .poly } (.plain { type := .regex, pattern := "^vinyl" }) (.plain { type := .regex, pattern := "[iI]", scope := Scope.leaf })) } none], files := 3 } = true := by
  decide +kernel

/-- filter-poly_test.go:288, invalid poly: constituent is also poly. -/
example : Case.ok { disk := disk_retro, tree := ["RETRO-WAVE"], sub := .files, options := [.filter { node := some (.both { type := .poly } (.plain { type := .poly, pattern := "" }) (.plain { type := .poly, pattern := "" })) } none], error := some .polyInvalid } = true := by
  decide +kernel

/-- filter-poly_test.go:308, poly - files:regex; directories:glob. -/
example : Case.ok { disk := disk_retro, tree := ["RETRO-WAVE"], sub := .universal, options := [.filter { node := some (.both { type := .poly } (.plain { type := .regex, pattern := "(", scope := Scope.file }) (.plain { type := .glob, pattern := "*i*", scope := (Scope.directory ||| Scope.leaf) })) } none], error := some .badRegex } = true := by
  decide +kernel

/-- filter-hybrid_test.go:109, directory(with files): glob child filter. -/
example : Case.ok { disk := disk_retro, tree := ["RETRO-WAVE"], sub := .directoriesWithFiles, options := [.filter { node := some (.plain { type := .glob, pattern := "*o*", scope := Scope.directory }), child := some { type := .glob, pattern := "*.flac" } } none], dirs := 6, children := [("Northern Council", 2), ("Teenage Color", 2), ("Innerworld", 2)] } = true := by
  decide +kernel

/-- filter-hybrid_test.go:138, directory(with files): glob child filter (negate). -/
example : Case.ok { disk := disk_retro, tree := ["RETRO-WAVE"], sub := .directoriesWithFiles, options := [.filter { node := some (.plain { type := .glob, pattern := "*o*", scope := Scope.directory, negate := true }), child := some { type := .glob, pattern := "*.txt", negate := true } } none], dirs := 2, children := [("Night Drive", 3)] } = true := by
  decide +kernel

/-- filter-hybrid_test.go:167, directory(with files): regex child filter. -/
example : Case.ok { disk := disk_retro, tree := ["RETRO-WAVE"], sub := .directoriesWithFiles, options := [.filter { node := some (.plain { type := .glob, pattern := "*o*", scope := Scope.directory }), child := some { type := .regex, pattern := "\\.flac" } } none], dirs := 6, children := [("Northern Council", 2), ("Teenage Color", 2), ("Innerworld", 2)] } = true := by
  decide +kernel

/-- filter-hybrid_test.go:196, directory(with files): regex child filter (negate). -/
example : Case.ok { disk := disk_retro, tree := ["RETRO-WAVE"], sub := .directoriesWithFiles, options := [.filter { node := some (.plain { type := .glob, pattern := "*o*", scope := Scope.directory, negate := true }), child := some { type := .regex, pattern := "\\.txt$", negate := true } } none], dirs := 2, children := [("Night Drive", 3)] } = true := by
  decide +kernel

/-- filter-hybrid_test.go:227, glob-ex filter type created for children. -/
example : Case.ok { disk := disk_retro, tree := ["RETRO-WAVE"], sub := .directoriesWithFiles, options := [.filter { node := some (.plain { type := .glob, pattern := "*o*", scope := Scope.directory }), child := some { type := .globEx, pattern := "*.flac" } } none], error := some .childGlobEx } = true := by
  decide +kernel

/-- filter-hybrid_test.go:250, malformed glob ex filter, missing type. -/
example : Case.ok { disk := disk_retro, tree := ["RETRO-WAVE"], sub := .directoriesWithFiles, options := [.filter { node := some (.plain { type := .glob, pattern := "*o*", scope := Scope.directory }), child := some { type := .undefined, pattern := "*.flac" } } none], error := some .childUndefined } = true := by
  decide +kernel

/-- filter-custom_test.go:103, universal(any scope): custom filter. -/
example : Case.ok { disk := disk_retro, tree := ["RETRO-WAVE"], sub := .universal, options := [.filter { custom := some (own "*.flac" Scope.file false) } none], files := 8 } = true := by
  decide +kernel

/-- filter-custom_test.go:120, universal(any scope): custom filter (negate). -/
example : Case.ok { disk := disk_retro, tree := ["RETRO-WAVE"], sub := .universal, options := [.filter { custom := some (own "*.flac" Scope.all true) } none], files := 6, dirs := 8 } = true := by
  decide +kernel

/-- filter-custom_test.go:138, universal(undefined scope): custom filter. -/
example : Case.ok { disk := disk_retro, tree := ["RETRO-WAVE"], sub := .universal, options := [.filter { custom := some (own "*.flac" 0#32 false) } none], files := 8 } = true := by
  decide +kernel

/-- filter-custom_test.go:156, universal(any scope): missing filter type. -/
example : Case.ok { disk := disk_retro, tree := ["RETRO-WAVE"], sub := .universal, options := [.filter { custom := some (own "*.flac" Scope.file false) } none], files := 8 } = true := by
  decide +kernel

/-- filter-errata_test.go:75, missing type. -/
example : Case.ok { disk := disk_retro, tree := ["RETRO-WAVE"], sub := .files, options := [.filter { node := some (.plain { type := .undefined, pattern := "*", scope := Scope.all }) } none], error := some .missingType } = true := by
  decide +kernel

end Traverse.Conform
