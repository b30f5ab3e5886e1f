import Verif.Conform.Fixture
/- Generated from the tables of internal/filtering/filter-glob-ex_test.go. -/
namespace Traverse.Conform

/-- filter-glob-ex_test.go:159, universal(any scope): glob ex filter. -/
example : Case.ok { disk := disk_rock, tree := ["rock", "PROGRESSIVE-ROCK", "Marillion"], sub := .universal, options := [.filter { node := some (.plain { type := .globEx, pattern := "*|*.flac", scope := Scope.all }) } none], files := 16, dirs := 5, prohibited := ["cover-clutching-at-straws.jpg"] } = true := by
  decide +kernel

/-- filter-glob-ex_test.go:177, universal(any scope): glob ex filter, with dot extension. -/
example : Case.ok { disk := disk_rock, tree := ["rock", "PROGRESSIVE-ROCK", "Marillion"], sub := .universal, options := [.filter { node := some (.plain { type := .globEx, pattern := "*|.flac", scope := Scope.all }) } none], files := 16, dirs := 5, prohibited := ["cover-clutching-at-straws.jpg"] } = true := by
  decide +kernel

/-- filter-glob-ex_test.go:195, universal(any scope): glob ex filter, with multiple extensions. -/
example : Case.ok { disk := disk_rock, tree := ["rock", "PROGRESSIVE-ROCK", "Marillion"], sub := .universal, options := [.filter { node := some (.plain { type := .globEx, pattern := "*|*.flac,*.jpg", scope := Scope.all }) } none], files := 22, dirs := 5, mandatory := ["front.jpg"], prohibited := ["vinyl-info.ORTOFON-2M-BLUE.SL1210.DJM500.BALANCE.REASON.SPINCLEAN.MAX-GAIN.txt"] } = true := by
  decide +kernel

/-- filter-glob-ex_test.go:214, universal(any scope): glob ex filter, without file globs. -/
example : Case.ok { disk := disk_rock, tree := ["rock", "PROGRESSIVE-ROCK", "Marillion"], sub := .universal, options := [.filter { node := some (.plain { type := .globEx, pattern := "*|", scope := Scope.all }) } none], dirs := 5, prohibited := ["01 - Hotel Hobbies.flac", "cover-clutching-at-straws.jpg"] } = true := by
  decide +kernel

/-- filter-glob-ex_test.go:232, universal(file scope): glob ex filter (negate). -/
example : Case.ok { disk := disk_rock, tree := ["rock", "PROGRESSIVE-ROCK", "Marillion"], sub := .universal, options := [.filter { node := some (.plain { type := .globEx, pattern := "*|*.!flac", scope := Scope.file }) } none], files := 7, dirs := 5, prohibited := ["01 - Hotel Hobbies.flac"] } = true := by
  decide +kernel

/-- filter-glob-ex_test.go:250, universal(undefined scope): glob ex filter. -/
example : Case.ok { disk := disk_rock, tree := ["rock", "PROGRESSIVE-ROCK", "Marillion"], sub := .universal, options := [.filter { node := some (.plain { type := .globEx, pattern := "*|*.flac" }) } none], files := 16, dirs := 5, prohibited := ["cover-clutching-at-straws.jpg"] } = true := by
  decide +kernel

/-- filter-glob-ex_test.go:269, files(file scope): glob ex filter. -/
example : Case.ok { disk := disk_rock, tree := ["rock", "PROGRESSIVE-ROCK", "Marillion"], sub := .files, options := [.filter { node := some (.plain { type := .globEx, pattern := "*|*.flac", scope := Scope.file }) } none], files := 16, mandatory := ["01 - Hotel Hobbies.flac"], prohibited := ["cover-clutching-at-straws.jpg"] } = true := by
  decide +kernel

/-- filter-glob-ex_test.go:287, files(any scope): glob ex filter, with dot extension. -/
example : Case.ok { disk := disk_rock, tree := ["rock", "PROGRESSIVE-ROCK", "Marillion"], sub := .files, options := [.filter { node := some (.plain { type := .globEx, pattern := "*|.flac", scope := Scope.file }) } none], files := 16, mandatory := ["01 - Hotel Hobbies.flac"], prohibited := ["cover-clutching-at-straws.jpg"] } = true := by
  decide +kernel

/-- filter-glob-ex_test.go:305, files(file scope): glob ex filter, with multiple extensions. -/
example : Case.ok { disk := disk_rock, tree := ["rock", "PROGRESSIVE-ROCK", "Marillion"], sub := .files, options := [.filter { node := some (.plain { type := .globEx, pattern := "*|*.flac,*.jpg", scope := Scope.file }) } none], files := 22, mandatory := ["front.jpg"], prohibited := ["vinyl-info.ORTOFON-2M-BLUE.SL1210.DJM500.BALANCE.REASON.SPINCLEAN.MAX-GAIN.txt"] } = true := by
  decide +kernel

/-- filter-glob-ex_test.go:323, files(file scope): glob ex filter, with multiple extensions and body. -/
example : Case.ok { disk := disk_rock, tree := ["rock", "PROGRESSIVE-ROCK", "Marillion"], sub := .files, options := [.filter { node := some (.plain { type := .globEx, pattern := "*|*o*.flac,f*.jpg", scope := Scope.file }) } none], files := 8, mandatory := ["front.jpg"], prohibited := ["02 - Warm Wet Circles.flac", "cover-clutching-at-straws.jpg"] } = true := by
  decide +kernel

/-- filter-glob-ex_test.go:344, file(file scope): glob ex filter (negate). -/
example : Case.ok { disk := disk_rock, tree := ["rock", "PROGRESSIVE-ROCK", "Marillion"], sub := .files, options := [.filter { node := some (.plain { type := .globEx, pattern := "*|*.!flac", scope := Scope.file }) } none], files := 7, mandatory := ["cover-clutching-at-straws.jpg"], prohibited := ["01 - Hotel Hobbies.flac"] } = true := by
  decide +kernel

/-- filter-glob-ex_test.go:362, file(undefined scope): glob ex filter. -/
example : Case.ok { disk := disk_rock, tree := ["rock", "PROGRESSIVE-ROCK", "Marillion"], sub := .files, options := [.filter { node := some (.plain { type := .globEx, pattern := "*|*.flac" }) } none], files := 16, mandatory := ["01 - Hotel Hobbies.flac"], prohibited := ["cover-clutching-at-straws.jpg"] } = true := by
  decide +kernel

/-- filter-glob-ex_test.go:379, file(any scope): IfNotApplicable=false, glob ex filter, any extension. -/
example : Case.ok { disk := disk_rock, tree := ["rock", "PROGRESSIVE-ROCK", "Marillion"], sub := .files, options := [.filter { node := some (.plain { type := .globEx, pattern := "c*|.*", ifNotApplicable := .no }) } none], files := 8, mandatory := ["cover-clutching-at-straws.jpg"], prohibited := ["01 - Assassing.flac"] } = true := by
  decide +kernel

/-- filter-glob-ex_test.go:399, file(any scope): glob ex filter, any extension (ifNotApplicable=true). -/
example : Case.ok { disk := disk_rock, tree := ["rock", "PROGRESSIVE-ROCK", "Marillion"], sub := .files, options := [.filter { node := some (.plain { type := .globEx, pattern := "c*|.*", ifNotApplicable := .yes }) } none], files := 23, mandatory := ["cover-clutching-at-straws.jpg"] } = true := by
  decide +kernel

/-- filter-glob-ex_test.go:416, universal: glob ex filter (ifNotApplicable=true). -/
example : Case.ok { disk := disk_rock, tree := ["rock", "PROGRESSIVE-ROCK", "Marillion"], sub := .universal, options := [.filter { node := some (.plain { type := .globEx, pattern := "*|*.flac", ifNotApplicable := .yes }) } none], files := 16, dirs := 5, mandatory := ["Marillion"], prohibited := ["cover-clutching-at-straws.jpg"] } = true := by
  decide +kernel

/-- filter-glob-ex_test.go:435, universal(leaf scope): glob ex filter (ifNotApplicable=false). -/
example : Case.ok { disk := disk_rock, tree := ["rock", "PROGRESSIVE-ROCK", "Marillion"], sub := .universal, options := [.filter { node := some (.plain { type := .globEx, pattern := "*|*.flac", scope := Scope.leaf, ifNotApplicable := .no }) } none], files := 16, prohibited := ["Marillion"] } = true := by
  decide +kernel

/-- filter-glob-ex_test.go:456, universal(any scope): glob ex filter with exclusion. -/
example : Case.ok { disk := disk_rock, tree := ["rock", "PROGRESSIVE-ROCK", "Marillion"], sub := .files, options := [.filter { node := some (.plain { type := .globEx, pattern := "*/c*|*.flac", ifNotApplicable := .no }) } none], files := 12, prohibited := ["01 - Hotel Hobbies.flac"] } = true := by
  decide +kernel

end Traverse.Conform
