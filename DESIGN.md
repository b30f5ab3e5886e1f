# A formal model of snivilised/traverse (agenor) in Lean 4

Everything below is about the sources in /repo at the pinned commit. The Lean project is `/verif/lean`; build with `lake build`.
Only core Lean is imported (no Mathlib module is used).

## 1. Structure

| Directory | Contents |
|---|---|
| `Verif/Model` | The model: definitions only, one per Go function or type, each with the file and lines it models. |
| `Verif/Spec` | What the properties are stated with: file systems, paths, pre-order listings, bracket words, windows, sorted lists. Nothing here is used by the model. |
| `Verif/Proofs` | Invariants, refinements, auxiliary lemmas. |
| `Verif/Demo` | Concrete file systems and handlers for the `example`s. |
| `Verif/Props` | The property theorems, named after their property (`C08_...`), with `example`s that show that the hypotheses are met by concrete, non trivial cases. |
| `Verif/Conform` | The repository's own test tables, run on the model (section 8). Tests of the model, not proofs. |

The layers of the model, from the inside out:

1. **Kernel** (`Basic`, `Kernel`, `Cascade`): `walk` is the navigator (internal/kernel: navigator-agent, navigator-universal,
   -directories, -files, mediator, extend, contents; internal/level/periscope). A file system is a finite tree (`FS`) with arbitrary names,
   nesting, read errors and info errors. Reading, sorting, the descend / ascend notifications, the callback, the skip handler and the
   panic handler are arbitrary functions with an arbitrary state (`Env`), so a theorem about `walk` holds for every client, including clients
   whose answers depend on everything they have seen. The mutual recursion of `top`, `travel`, `traverse` and the per-subscription
   functions is modelled by structural recursion over the tree, so there is no fuel and no bound.
2. **Chain** (`Chain`): the guardian with the decorators (hibernation, nanny, filter, sampler, fastward) around the client's
   handler, metrics, notifications with muting, the state saved on a panic. `Setup.env` plugs this into `walk`; `Setup.session` is a navigation.
3. **Features** (`Filters`, `Sampling`, `Sort`, `Paths`, `Hooks`, `Life`, `Broker`, `Collections`, `Options`, `Persist`): each modelled by itself.
4. **Sessions** (`Session`, `Resume`): facade validation, options, building of plugins, `walkPrime` and `walkResume`: what
   `age.Walk().Configure().Extent(age.Prime(...)|age.Resume(...)).Navigate(ctx)` does from beginning to end, with everything a client can observe (`Report`).
5. **Concurrency** (`Concurrent`): `age.Run`: a state machine of navigator, pool queue, workers and client with arbitrary interleavings.

Theorems are first proved about `walk`, an arbitrary environment included; then lifted through the chain by invariants
(`traverse_inv`, `plain_session_inv`); then to whole sessions (`Proofs/Bridge`, `Proofs/Bare`, `Props/Api`, `Props/Api2`), so that the
user-level statements speak about settings, disk and report only.

The central refinement: `walk` is related to a flat relation `Run` over the pre-order listing of the tree (`Spec/Flat`, `Proofs/Flat`): any
navigation is a run through the listing in which every answer decides what is skipped. Order, coverage, pruning, error and panic
properties are then inductions over runs.

## 2. Trusted base

* **Lean's kernel** (4.33.0), and the theorem statements with the definitions they mention (model and spec).
* **Axioms.** Of the theorems in MANIFEST.json, checked with `#print axioms`: none uses anything but `propext`,
  `Classical.choice` and `Quot.sound`; a good third uses only `propext` and `Quot.sound` or less. No axiom is declared anywhere, no proof uses
  compiled evaluation: concrete evaluations are `decide +kernel`, i.e. the kernel computes.
* **The model being faithful to the Go code.** There is no extraction; the correspondence is by reading, checked against the expectations in the repository's tests (section 8). Every definition in `Verif/Model` cites the
  lines it models and says where it simplifies.

### Assumptions about what is outside the repository

* Go: slices are values (no aliasing effects), maps have arbitrary iteration order (an explicit parameter where it can be observed), `uint` /
  `int` counters do not overflow (metrics are natural numbers; the depth limit is below 2^63: finding 25), `errors.Is` walks the unwrap tree.
* Go's library: `filepath.Match`, `regexp`, `strings.ToLower`, `strings.TrimSpace` are parameters (`Engine`) about which nothing is
  assumed; `sort.Slice` returns some sorted permutation; `filepath.Split`, `Join`, `Clean` as modelled, for Unix.
  `encoding/json` is trusted to turn JSON text into value trees and back; struct tags and keys are modelled.
* snivilised/nefilim: `Stat`, `ReadDir`, `Separate`, `ResolvePath`, `calc.Split / Join / Dir / Base` as their names say.
* snivilised/pants (worker pool; the source is not available here): input channel with a buffer, one reader that waits for a free worker, at most
  NoW workers, closing lets accepted inputs finish, the output is always read.
* The file system does not change during a session. Hooks are pure functions. Outside C67, listeners, hooks, skip handlers and panic handlers
  do not panic (handlers, node filters and wake and sleep conditions may, that is C17). After C67's panics the client's state is arbitrary. Bus handlers do not call the broker back.

## 3. What is modelled

| Go | Model |
|---|---|
| internal/kernel: navigator-agent, navigator-universal, navigator-directories, navigator-files, mediator, extend, contents, navigation-fs, navigation-vapour, author; internal/level; stock | `Model/Basic`, `Model/Kernel`; with callbacks that panic: `Model/Mortal`; sessions of such clients: `Model/Frail`; on a file system that changes: `Model/Live`, resumed: `Model/LiveResume` |
| pref/options-navigation-behaviours, internal-traverse-defs (afterwards) | `Model/Cascade`, `Model/Options` |
| internal/kernel/guardian, manifest.go, director.go (features), internal/feat/{hiber,nanny,filter,sampling,resume}, core/metrics, internal/enclave/supervisor | `Model/Chain` |
| collections | `Model/Collections` |
| life, tapable, internal/third/bus, internal/services | `Model/Life`, `Model/Hooks`, `Model/Broker`, `Model/Message` |
| internal/filtering, core/filtering, enums/filter-scope | `Model/Filters`; with the definitions in memory: `Model/Wear`; with names, and the sink: `Model/Sink` |
| internal/feat/sampling, internal/filtering/sample.go, pref/options-sampling | `Model/Sampling` |
| pref/defaults (sort, read), core sort hooks | `Model/Sort` |
| tapable default sub path hooks, core/node.go | `Model/Paths` |
| pref/* (options, defaults, defects, facade), internal/opts/get-push | `Model/Options` |
| scaffold.go, builders.go, director.go, driver.go, extent.go, session.go, factories.go, internal/kernel/navigator-factory, -hades | `Model/Session` |
| internal/persist, internal/opts/json, internal/opts/load | `Model/Persist`; on arbitrary documents: `Model/Foreign` |
| internal/feat/resume, scaffold.go (resume platform) | `Model/Resume` |
| internal/kernel/author.go | `Model/Author` |
| extent.go (add-ons), internal/enclave/enclave-defs.go (StateHandler) | `Model/Addons` |
| enums/*-en-auto.go | `Model/Enums` |
| locale (messages, templates, error variables and their Error methods) | `Model/Texts` |
| internal/third/lo (the loops, shown in `Props/Lo` to be the Lean list functions the rest of the model uses) | `Model/Lo` |
| synchronise.go, composites.go, core/async.go | `Model/Concurrent`, `Model/Output` |

## 4. What is not modelled

* li18ngo and go-i18n: a translation is taken to be a template per message id, filled in by text/template with the data's field and the method SourceID (Model/Texts); plural forms, languages, loading of files and what li18ngo does when a template cannot be filled in are not modelled. The texts of fmt.Errorf wrappers in internal/persist/comparison.go neither. Loggers, sinks and output functions (known by numbers; what sinks are handed is in Model/Sink, and they are taken to return).
* The pool's internals (assumed contract), time, contexts: cancellation is never consulted by the sequential navigator (finding 21).
* The `test` and `examples` trees; internal/laboratory; internal/kernel/{bootstrap,vex,servant}.go (comments
  and accessors without behaviour).
* JSON syntax. `Model/Foreign` (C71) takes any document; not modelled in it are numbers that do not fit their Go type, keys that differ in case only or occur twice, and metrics that are null or have keys that are not numbers; enum numbers without a name are errors in the model.

### Simplifications inside modelled code

* Except in `Model/Live` and `Model/LiveResume` (C69) the file system does not change during a session; C69_session and C69_resumed reduce sessions and resumed sessions on changing file systems to these.
* Nodes are handed to callbacks as values: a client that writes to the fields of a node is outside the model.
* A file as root under the Directories subscription keeps the raw read error in `prep`.
* A nil filter is a crash at build. `Using.GetForest` is taken to give a non-nil forest.
* The spawn strategy with a saved path outside the tree (endless recursion in the code) is a panic in the model.
* Spawn's metrics are merged before Begin instead of later (nobody can see that).
* In `Run` the handlers in the workers do not change the state that listeners and the skip, fault and panic handlers see; C47_shared and C47_shared_resumed show that whatever they do to it at any moment makes no difference to what is sent, notified and returned, as long as the answers of these handlers do not depend on it.
* The builders of `Model/Filters` and `Model/Session` use copies of the filter definitions; the in-place scope changes of poly and extended glob definitions are in `Model/Wear`, and C70 shows that this makes no difference to sessions.

## 5. Findings

Found while modelling; where it contradicts a property, a theorem evaluates the counterexample.

1. `SkipAll` does not end a traversal (Universal, Directories): a `break` inside a `switch` only leaves the switch; it acts like SkipDir. (C09)
2. Files subscription: `SkipDir` ends the whole traversal and Navigate returns it; `SkipAll` only skips the rest of the directory. (C10)
3. A panic in a direct child of the root saves CurrentPath = Tree: a spawn resume then visits nothing and reports completion; a fastward
   resume dereferences nil at the root, as it does whenever the saved path's last name equals the root's name. (C19, C20)
4. A fastward resume of a Files session never wakes: it looks for a directory, and Files only presents files. (C19)
5. A panic in the root's own callback is not rescued; it escapes from Navigate. (C17)
6. Spawn resume: siblings are chosen by byte order of names although visits follow the sort hook, so nodes are missed or visited
   twice; depths at ancestors are wrong; SkipDir aborts the resume; Directories gets files; nodes of the saved directory visited before the panic are visited again. (C20)
7. `UnmuteAll` omits Wake. (C40)
8. Resume strategy Undefined mutes everything and has no filter.
9. The fastward link runs last in the chain, not first as documented. (C34)
10. Sampling swallows read errors of directories. (C32)
11. The Directories subscription ignores SkipDir from the skip handler. (C16)
12. `Metrics.Merge` drops keys absent in the receiver; a fastward resume does not carry metrics over at all; filtered-out metrics are not persisted. (C46)
13. SubPath mixes byte and rune counts: wrong for multi-byte tree paths; the ScopeTop branch is dead; tree "." gives wrong sub paths. (C50)
14. Extended glob lowercases the pattern's extension but not the name's. (C52)
15. The options comparison does not notice nil against non-nil Poly. (C45)
16. `Tap` after `Chain` drops the chained listeners (and later ones too). (C41)
17. `Filter.Custom` overrides the WakeAt / SleepAt conditions; a poly WakeAt uses the node filter's Poly.
18. `IsCaseSensitive`, `Sampling.Iteration` and `Periscope.Delta` are never used.
19. A child filter with Universal or Files panics on file nodes.
20. Reusing `Using.O` for a second session chains its hooks again.
21. Contexts are never consulted by the sequential navigator.
22. The recovered panic value is lost. 23. `Relic.Validate` is never called: a nil handler is accepted and panics at the first node. (C29)
24. A panic in an OnDescend listener leaks the depth counter: the state is saved with a depth one too large, that Descend has no Ascend, and a second Navigate counts from 1. An OnAscend listener that panics for several nodes above each other has a state saved for each of them. (C67) 25. `WithDepth(n)` with n ≥ 2^63 refuses even the root.
26. The sample filter as primary scheme adds the root's files to the child metrics at the root only.
27. DirectoriesWithFiles with a node or sample filter but no child filter: Children is always empty. (C33)
28. After Sleep the navigator goes on visiting nodes outside the pruned subtrees. (C26)
29. A poly filter crashes on a file as root (nil Parent).
30. A sample filter with both or no scope bits filters directories only. (C31)
31. A failing plugin Init (e.g. a bad hibernation pattern) still publishes Begin and End. (C28)
32. A fastward resume never publishes Begin (it is muted at that time). (C27)
33. Extended glob sub patterns without a dot are rejected although the documentation calls the dot optional. (C52)
34. A filter of type Custom without `Custom` gives a nil filter that panics when used; as a constituent of a poly filter it panics at build.
35. With `Run`, End may come before outstanding handler calls; handler panics in workers are not rescued. (C47, C17)
36. With `Using.O`, settings are silently ignored. 37. A sample filter's Poly and Custom are lost by ToJSON and the comparison does not notice. (C44)
38. An artefacts error hands a nil error to the failing navigator (harmless). 39. Hooks are not persisted: a resume sorts by default order unless the option is given again.
40. `WithNoW(0)` makes a pool without workers, which blocks for ever. (C48)
41. Files subscription with a sleep condition: Navigate may return SkipAll. (C25)
42. TraversalSavedError's message template asks for a field `.Field`, TraversalNotSavedError's for `.Reason`, and the data has neither: text/template cannot fill them in, so the errors of a panicked session have no English text, and under no translation does the former tell where the state was saved. (C74_panic_says_nothing, C74_session_panic)
43. A spawn resume navigates the saved path and each later sibling with no Parent: a handler panic there is not rescued but leaves Navigate, nothing is saved and a chain of resumes ends there. (C17, C72_spawn_orphans, C63_spawns_lose)
44. A fastward resume publishes the Ascend of the saved path and of every directory above it without their Descend. (C57)
45. A spawn resume counts depths from the saved depth for every ancestor: later siblings of ancestors are delivered with too large a depth, and with a depth limit nodes within the limit are left out; their scopes lack Top. (C58)
46. A spawn resume climbs from the saved path until the text equals the saved tree path. All paths below the root are cleaned but the tree path is not: with a tree path that is not clean ("./r", "r/") the two never meet and the resume climbs out of the tree. (C59_unclean_tree_unmatched; the resume model assumes clean tree paths.)
47. When the worker pool cannot be created the error is `errors.Wrap(c.err, locale.ErrWorkerPoolCreationFailed.Error())`: the text of that error with the pool's error inside. `errors.Is(err, locale.ErrWorkerPoolCreationFailed)` is false. (synchronise.go:99, C60_pool_unrecognised)
48. `locale.ErrPolyFilterIsInvalid` carries the message data of FilterIsNil (locale/messages-errors.go:448-452): it reads "filter is nil". errors.Is is not affected. (C74_poly_says_nil, C74_session_partial)
49. The value a handler panicked with, if it is an error, is dropped by NewTraversalSavedError and NewTraversalNotSavedError, and the reason of a failed save is not reachable by Unwrap (locale/messages-errors.go:749-796).
50. IsComplete of a session is the constant true for prime sessions and fastward resumes, also when they ended on an error or were not built (extent.go:66-68, strategy-fastward.go:140-142); only a spawn resume tells. (C61)
51. What Navigate leaves behind is kept for the next call on the same navigator (driver.go:29-37): metrics of the calls add up (supervisor.go:24-26); a hibernating navigator that has woken stays awake and one that has gone to sleep again never calls the handler any more; a resume by spawning adds the saved depth and metrics once more (mediator.go:104-108, periscope.go:28-30) and its second call ends in ErrDetectedSpawnStackOverflow after all the handler calls were made (strategy-spawn.go:62-71). (C62)
52. End to end: after a panic at a node directly inside the root the saved path is the root, so the spawn resume delivers nothing, returns nil and says it is complete, and the fastward resume panics; with the Files subscription a fastward resume after any panic delivers nothing and returns nil, since the saved path is that of a directory (navigator-agent.go:103-142, strategy-spawn.go:59-71, strategy-fastward.go:60-134). (C63)
53. `MetricNoChildFilesFilteredOut` prints as "metric-no-of-child-files-found", the text of another metric (enums/metric-en.go, metric-en-auto.go:19). The notifications after the undefined one, `NotificationAll` and `ScopeAll` are untyped constants, so stringer does not know them: `Notification(1)` instead of "begin-notification" (enums/notification-en.go:12-19, filter-scope-en.go:53). (C64)
54. The output function is called on the navigator's goroutine before navigation begins (synchronise.go:104-108): one that ranges over the stream it is given, as its description suggests (options-concurrency.go:44-47), never returns, and neither does Navigate. (C66_in_place_deadlock)
55. When the saved file of a resume cannot be loaded, the OnLoad add-on is called with nil before the error is looked at (extent.go:91-104, resume-plugin.go:60-62): one that changes the state it is given, which is its purpose, panics out of Extent and the error is never reported. (C68)
56. Nothing recovers from a panic of a Begin or End listener, of the QueryStatus hook on the root or of the fault handler: it leaves Navigate, after End even though all the work is done, and the result is lost. In a resume by spawning the same holds for the hooks the strategy itself calls. (C67_begin_escapes, C67_end_escapes)
57. A poly filter looks at the node's Parent. A resume by spawning navigates the saved path and each later sibling with no Parent, so a later sibling that is a file makes the filter panic and, nothing rescuing it there, the panic leaves Navigate (poly.go:66-72, strategy-spawn.go:98-114). (C53_resumed_panics)
58. The saved state always records the hibernation state as retired (navigation-vapour.go:59) and a resume does not read it: hibernation begins anew. A session interrupted while awake and resumed by spawning waits for a wake condition that lies behind it: it delivers nothing, returns nil and says it is complete. (C25_forgotten)
59. A resume by spawning whose sleep condition is met returns the sentinel SkipAll and is not complete, where a prime session returns nil and is. (C26_resumed_skipAll)
60. A directory is listed when it is entered and nothing bounds the levels by default: a handler that creates a directory inside the one it is called for before that is listed, or anybody who does so, keeps a session without depth limit busy for ever. (C69_endless)
61. Building a session writes to the client's filter definitions: the scope of an extended glob is overwritten with that of files, those of the parts of a poly filter are changed, even if building fails afterwards, and the saved state has the changed ones. Sessions do not notice (C70); a client that reads its definitions, or changes their type and uses them again, does. (C70_touched and the example beside it)
62. A file to resume from that has no "JO" part, even `{}` or `null`, makes Navigate panic (nil options in FromJSON) instead of returning an error; so does one without the "Active" part (nil state in buildForest). (C71_panics, C71_panics_stateless)
63. `Relic.Validate` reports a missing strategy as a missing subscription (pref/facade.go:144-146, with a TODO); the library never calls it (finding 23). (C29_relic_validate_partial)
64. A sample filter is never handed to the sink, FilterReply.Sampler is always nil (C75_sampler_kept). The sink is part of FilterOptions, which are not saved with it: to have it called in a resumed session the client must give the filter definitions again with it, or lose the saved ones (C75_restored). A session that is not built for a faulty child filter has already handed over the node filter (C75_in_vain).
65. A resume by fastward whose saved directory was removed or renamed meanwhile never finds its place: it delivers nothing of what remained, returns nil and says it is complete (strategy-fastward.go:117-130, 140-142). Spawning copes. (C76_fastward_partial, C76_gone)
66. In a resume by spawn a handler that returns SkipDir (or SkipAll) for the saved path, or for a later sibling of it or of a directory above it, ends the whole resume: seed stops at the first error, and a navigation returns the sentinel its first node was answered with (strategy-spawn.go:98-114). Navigate returns the sentinel, the session says it is incomplete, what remained is not delivered. The same answers in the session that was interrupted, or with fastward, only skip what lies below. (C77_spawn_partial, C77_spawn_ends)
67. With sampling, a resume by spawn cannot fail to list a directory on its way: the sampler's hook drops the error (finding 10), so if the saved directory or one above it is gone or unreadable, the resume passes over it, returns nil and says it is complete; without sampling it returns the error. And the sample is taken of the whole directory before what was visited is left out: a saved path that is not in the sample of its directory, for instance when sampling is asked for only at the resume, may leave nothing to deliver. (C32_resumed_hides, C30_resumed_sample)
68. An extended glob asks about the directory of a file only if the node has a Parent (glob-ex.go:65-83). A resume by spawning navigates the saved path and each later sibling of it and of the directories above it with no Parent, so files among the siblings are delivered whatever their directory is called, which an uninterrupted session would not deliver. (C52_unparented)
69. The fastward link comes after the node filter (finding 9). If the filter rejects the saved directory, a resume by fastward never wakes: it delivers nothing, returns nil and says it is complete, although nodes the filter accepts remain. (C19_filtered_out, C19_filter_never_wakes) The same if the saved directory comes before the node that ends hibernation, as it does when the handler panics at a later sibling of that node. (C25_fastward_lost)
70. For the same reason a resume by fastward counts as filtered out also what the filter rejects before the saved path, and the nodes it accepts there reach the filter without being called or counted. (C22_fastward_unaccounted)


## 6. Properties, one by one

For each property: what is modelled and how it is proved, the status, and the theorems (namespace `Traverse`). `partial` means: the property as written is false of the code; a theorem proves that (a concrete counterexample evaluated by the kernel), and the `_partial` theorem proves what does hold for all inputs, with the missing part named in its comment.

### C01 Universal traversal is complete and duplicate free — proved

Kernel model refined to runs over the pre-order listing; with a nil-returning handler the run is the listing, which is shown to be a permutation-free enumeration of the raw tree (`FS.At`). Lifted to whole sessions.

Theorems: `C01_session`, `C01_universal_complete`

### C02 Pre-order and sibling order — proved

The visited nodes are a sublist of the listing, whose order is characterised by prefixes and by the sort hook's order of siblings; for every client and configuration. Also of resumed sessions (Props/ResumedNodes).

Theorems: `C02_session`, `C02_resumed`, `C02_preorder`, `C02_kinds`

### C03 Files subscription delivers exactly the files — proved

Same refinement for the Files navigator; compared with the Universal session of the same settings.

Theorems: `C03_session`, `C03_files`

### C04 Directories subscriptions deliver exactly the directories — proved

Same refinement for the Directories navigator; compared with the Universal session.

Theorems: `C04_session`, `C04_directories`

### C05 Depth limit — proved

The depth-cut listing equals the listing filtered by level; `afterwards` gives 1 for NoRecurse. Proved as a comparison of two sessions that differ in the limit only.

Theorems: `C05_session`, `C05_session_nothing_deeper`, `C05_depth_limit`, `C05_depth_limit_nodes`, `C05_nothing_deeper`, `C05_settings`, `C05_machine_integers`, `C05_huge_limit_visits_nothing`

### C06 Reported depth is the true depth — proved

Periscope counter invariant by mutual induction: depth = length of the path below the tree.

Theorems: `C06_session`, `C06_depth`

### C07 Descend and ascend events are balanced and well nested — proved

Ghost event log; inductive grammar of balanced tours (`Tour`); mutual induction over the navigator, panics and errors included.

Theorems: `C07_session`, `C07_balanced`, `C07_handler_inside`

### C08 SkipDir from the handler prunes exactly that subtree — proved

Induction over runs: nodes shown = nodes of the undisturbed session outside the subtrees of nodes answered with a sentinel.

Theorems: `C08_session`, `C08_session_prefix`, `C08_skipDir_prunes`, `C08_skipDir_prefix`

### C09 SkipAll from the handler ends the traversal — partial

False of the code (finding 1): counterexample; the partial theorem says what SkipAll does.

Theorems: `C09_session_partial`, `C09_skipAll_does_not_end`, `C09_skipAll_partial`

### C10 Skip sentinels with the Files subscription — partial

False of the code (finding 2): counterexample; the partial theorem says exactly what both sentinels do.

Theorems: `C10_session_partial`, `C10_files_skipDir_ends`, `C10_files_skip_partial`

### C11 A genuine handler error stops the traversal and is returned verbatim — proved

Induction over runs: the genuine error is the last answer and what Navigate returns.

Theorems: `C11_session`, `C11_genuine_error`, `C11_resumed`

### C12 A nil error from Navigate means nothing failed — proved

Induction over runs.

Theorems: `C12_session`, `C12_nil_means_ok`, `C12_resumed`, `C12_resumed_ways`

### C13 Invocation metrics count handler calls — proved

Invariant of the chain state lifted by the kernel's invariant rule, for the final metrics and for what every single handler call sees.

Theorems: `C13_session`, `C13_invocation_metrics`

### C14 Failure to stat the root — proved

Directly on the session model (`top`'s stat failure), including the events; for fastward in Props/Ways; for spawn in Props/Vanished: two disks that differ in what can be stat'ed, by induction over the navigations of the resume.

Theorems: `C14_session`, `C14_root_stat`, `C14_root_stat_default`, `C14_spawn`, `C14_resumed`

### C15 An unreadable directory is isolated — proved

Listing of the tree with an unreadable directory = listing of the tree where that directory is empty, and comparison with the tree where it is readable. For sessions of any configuration and for resumed ones: read errors are blurred out of the nodes, and the legs of a spawn resume are compared as lists (Props/Unreadable).

Theorems: `C15_session_like_empty`, `C15_session_isolated`, `C15_session_delivered`, `C15_unreadable_like_empty`, `C15_unreadable_isolated`, `C15_unreadable_delivered`, `C15_session_any`, `C15_resumed`

### C16 Skip handler verdicts — partial

Runs with arbitrary skip handlers; SkipAll part false (finding 1), Directories ignores SkipDir (finding 11): counterexamples and partial theorem. For whole sessions and every subscription in Props/Skips (skip handlers that answer by the path); for both resume strategies in Props/SkipHandler: what is left is told by the Parents of the nodes; a fastward resume asks from the tree on, so that an answer for a directory above the saved path leaves nothing.

Theorems: `C16_skipAll_does_not_end`, `C16_directories_ignore_skipDir`, `C16_skip_handler_partial`, `C16_spawn_partial`, `C16_fastward_partial`, `C16_session_partial`

### C17 A panicking handler is rescued, saved and reported — partial

Induction over runs: a panic below the root is the last call and Navigate returns the panic handler's error; root panics escape (finding 5): partial. Panics of node filters: invariant of the session (`Proofs/Dying`).

Theorems: `C17_session_partial`, `C17_filter_partial`, `C17_trigger_cases`, `C17_root_panic_escapes`, `C17_panic_rescued_partial`, `C17_resumed_partial`, `C17_resumed_escapes`, `C17_resumed_witness`

### C18 Content of the saved state — proved

Invariant about the state handed to the panic handler.

Theorems: `C18_where`, `C18_saved_state`, `C18_handler_panic`

### C19 Fastward resume delivers exactly the remaining suffix — partial

Fastward resume as a session with the fastward link; shown to be the session that dozes until the saved directory; counterexamples for Files, for equal names and for filters that reject the saved directory (findings 3, 4, 69): partial. C19_screened says what is shown with filters and hibernation.

Theorems: `C19_as_if_dozing`, `C19_fastward_partial`, `C19_files_never_wake`, `C19_same_name_panics`, `C19_filtered_out`, `C19_screened`, `C19_filter_never_wakes`

### C20 Spawn resume covers everything not yet visited — partial

Spawn resume as a composition of walks along the crown of the saved path; union with what was visited covers the tree when names along the path come in byte order; counterexamples otherwise (findings 3, 6): partial. C20_spawn_directories_partial says the same of Directories subscriptions.

Theorems: `C20_spawn_partial`, `C20_spawn_files_partial`, `C20_root_resumes_nothing`, `C20_false_in_general`, `C20_spawn_directories_partial`, `C20_unreadable`

### C21 Filters decide callbacks, not navigation — partial

Filtered and unfiltered sessions simulate each other; whole-session comparison. Also of resumes by spawning, compared with the same resume without filter or conditions (Props/Screened; Proofs/Astray runs the two in tandem). For a resume by fastward only if the filter accepts the saved directory (finding 69): partial there.

Theorems: `C21_session`, `C21_calls`, `C21_navigation`, `C21_fastward_partial`, `C21_resumed`

### C22 Filter conservation — partial

Invariant of the chain state: calls + filtered out = nodes that reached the filter, at any time. Also of resumes by spawning, compared with the same resume without filter or conditions (Props/Screened; Proofs/Astray runs the two in tandem). Of a resume by fastward the account lacks the nodes passed by before the saved path (finding 70): partial there.

Theorems: `C22_session`, `C22_conservation`, `C22_reach`, `C22_fastward_partial`, `C22_fastward_unaccounted`, `C22_resumed`

### C23 Filter scope and negation — proved

Filter model with the pattern engine as parameter; scopes are 32-bit vectors. Whole sessions and resumes by spawning by comparison with the same without filter.

Theorems: `C23_resumed`, `C23_scope_and_negation`, `C23_refused`, `C23_pattern_only_in_scope`, `C23_session`

### C24 Node scope classification — proved

Model of extend and periscope; bit-level characterisation of every node's scope against the raw tree. Also of resumed sessions (Props/ResumedNodes).

Theorems: `C24_session`, `C24_scope`, `C24_resumed`

### C25 Hibernation delivers one window — partial

Hibernation automaton over node sequences equals the window of the specification; lifted to sessions, compared with the session without conditions; events included. Also of resumes by spawning, compared with the same resume without filter or conditions (Props/Screened; Proofs/Astray runs the two in tandem). Of a resume by fastward only from the saved path on and only if that is in the window (finding 69): partial there.

Theorems: `C25_session`, `C25_fastward_partial`, `C25_fastward_lost`, `C25_window`, `C25_once`, `C25_window_of_tree`, `C25_window_of_tree_files`, `C25_resumed`, `C25_forgotten`

### C26 Sleep ends the traversal — partial

False of the code (findings 1, 28): counterexample; partial theorems, at the level of Walk().Prime(…).Navigate too (Props/Nap): after the Sleep event at most the sleeping node itself is handed out, only direct entries of it and of the directories that contain it are still entered; Files: every further file is the last seen of its directory. Of a resume by spawning: returns SkipAll and is not complete (finding 59).

Theorems: `C26_sleep_does_not_end`, `C26_sleep_partial`, `C26_session_partial`, `C26_files_session_partial`, `C26_resumed_skipAll`

### C27 Begin and End bracket every session — partial

Session model's tape; false for fastward (finding 32): counterexample and partial theorems.

Theorems: `C27_spawn_partial`, `C27_fastward_no_begin`, `C27_bracket_partial`, `C27_no_pool_partial`

### C28 A session that cannot be built does nothing — proved

Model of the platform, options and plugin building. Resumed sessions are refused for the same filters: compared with the primary session that has the same options. Extended globs: an inverse of the expression that reads a sub-pattern.

Theorems: `C28_globEx_definition`, `C28_resumed_globEx`, `C28_poly_definition`, `C28_resumed_poly`, `C28_child_definition`, `C28_node_definition`, `C28_sample_definition`, `C28_custom_definition`, `C28_resumed_child`, `C28_resumed_node`, `C28_resumed_sample`, `C28_resumed_custom`, `C28_resume_no_calls`, `C28_resume_errors`, `C28_option_error`, `C28_unregistrable`, `C28_no_calls`, `C28_hibernation_begins`

### C29 Facade validation — partial

Decision logic of the facades; the resume facade is never validated (finding 23): partial.

Theorems: `C29_relic_validate_partial`, `C29_using_refused_partial`, `C29_relic_unchecked`, `C29_refused_partial`, `C29_accepted_partial`

### C30 Sampling bounds — proved

Lists: the sampled directory contents have at most the configured numbers and are the first or last ones. The sampling link lets everything pass, so a session with sampling simulates the one without on the sampled disk; for resumes (C30_resumed) the simulation keeps fastward's place in step, and the legs of a spawn resume are compared as lists. The bounds in resumes (C30_resumed_at_most): every delivered node other than the tree is listed by the read hook of its directory (starts of a spawn resume via the listing they come from), no path comes twice, and a listing holds no more of a kind than the quota.

Theorems: `C30_session`, `C30_session_at_most`, `C30_resumed_at_most`, `C30_resumed_in_sample`, `C30_resumed`, `C30_resumed_sample`, `C30_sampling`, `C30_at_most`

### C31 Sample filter precedes sampling — partial

Composition of sample filter and sampling; findings 26, 30 are shown; partial. For resumes (C31_resumed_partial): the read hook of the built session is the sampler after the filter, what it lists is the sample of the matching entries, and every delivered node other than the tree is listed in its directory.

Theorems: `C31_session_partial`, `C31_resumed_partial`, `C31_sample_filter_partial`, `C31_custom`, `C31_own`, `C31_both_kinds`

### C32 Sampling does not hide read failures — partial

False of the code (findings 10, 67): counterexamples, partial theorem for sessions without sampling. That it is false of every session with sampling, first or resumed, whatever else is configured, follows from C30 (Props/Hushed).

Theorems: `C32_session_hides`, `C32_resumed_hidden`, `C32_resumed_hides`, `C32_unsampled_partial`, `C32_sampling_hides`

### C33 Children of DirectoriesWithFiles — partial

Chain invariant for nanny and child filter; finding 27 is shown; partial. The same invariant over the legs of a spawn resume, starting from the carried metrics (Props/ChildrenResumed).

Theorems: `C33_session_partial`, `C33_node_filter_loses_children`, `C33_children_partial`, `C33_resumed_partial`

### C34 Plugin chain order — partial

Ghost record of the links run for each node; false for fastward (finding 9): counterexample, partial theorem, and the actual order for all sessions; the manifest by itself.

Theorems: `C34_chain_order_partial`, `C34_nanny_only_without_filter`, `C34_once_handler_last`, `C34_fastward_is_last`, `C34_actual_order`, `C34_manifest_sublist`, `C34_manifest_defers`

### C35 Chain short circuit — proved

The guardian's iteration over arbitrary links, by induction.

Theorems: `C35_short_circuit`, `C35_all_run`

### C36 Positional set — proved

Refinement of the map-and-cache implementation to a filtered list, over all operation sequences.

Theorems: `C36_positional_set`, `C36_insert_delete`, `C36_all`, `C36_position`

### C37 Stack — proved

Refinement to a list, over all operation sequences.

Theorems: `C37_stack`

### C38 Iterators — proved

State machine of the iterators; loop theorem by induction.

Theorems: `C38_runAll`, `C38_reset`, `C38_elements`

### C39 Life-cycle notification — proved

Refinement of the notification controller to (listeners, muted), over all operation sequences.

Theorems: `C39_notification`, `C39_exactly_once`, `C39_mute_unmute`, `C39_session`, `C39_resumed_session`

### C40 Mute all / unmute all — partial

UnmuteAll omits Wake (finding 7): counterexample, partial theorem.

Theorems: `C40_wake_stays_muted`, `C40_muteAll_partial`

### C41 Hook tap and chain — partial

Refinement of the hook controller; Tap after Chain (finding 16): counterexample, partial theorem.

Theorems: `C41_tap_then_chain_partial`, `C41_tap_after_chain`

### C42 Message bus — proved

Broker invariant over all operation sequences.

Theorems: `C42_message_bus`, `C42_delivered`, `C42_listings`, `C42_reset`, `C42_registers`, `C42_deregisters`

### C43 Options are applied in order — proved

Fold over the settings; for each option and each part of the options the last one wins; options that concern different things may be given in any order (C43_any_order).

Theorems: `C43_any_order`, `C43_any_order_resumed`, `C43_order_matters`, `C43_order`, `C43_resume`, `C43_last_wins`, `C43_defaults`, `C43_listeners`, `C43_conditional`, `C43_afterwards`, `C43_supplied`

### C44 Persisted options survive a round trip — partial

Encoding and decoding of options and state as JSON values, mutual induction over nested definitions; finding 37 is shown; partial. Besides round trips, what stands where in the document (Props/Document), with the documented enum numbers.

Theorems: `C44_document_state`, `C44_document_metrics`, `C44_document_options`, `C44_round_trip_partial`, `C44_filters`, `C44_sample_poly_lost`, `C44_not_persisted`

### C45 The conversion self-check detects every difference — partial

The comparison accepts exactly equal options but for finding 15; partial.

Theorems: `C45_comparison_partial`, `C45_poly_unnoticed`

### C46 Resumed metrics continue the saved ones — partial

Metrics carried into a spawn resume; fastward forgets them (finding 12): counterexample, partial theorem.

Theorems: `C46_spawn_partial`, `C46_fastward_forgets`

### C47 Concurrent run calls the handler exactly once per node — proved

State machine of navigator, queue and workers; invariant over all schedules. That the handlers in the workers may share state with the callbacks of the navigating goroutine: a simulation with a client whose state is changed arbitrarily between any two of these calls (C47_shared).

Theorems: `C47_shared`, `C47_shared_resumed`, `C47_at_most_once`, `C47_exactly_once`, `C47_not_cut_short`, `C47_every_node_once`, `C47_resume_not_cut_short`, `C47_no_pool`

### C48 Concurrent run never deadlocks — proved

Progress and a decreasing measure on the same state machine.

Theorems: `C48_progress`, `C48_ends`, `C48_can_finish`, `C48_sizes`, `C48_resume_sizes`

### C49 Composite scenarios select the right session — proved

All composites and extents against the underlying sessions.

Theorems: `C49_select`, `C49_agree`, `C49_navigate`

### C50 Sub path — partial

Paths as character lists; multi-byte trees (finding 13): counterexample, partial theorem.

Theorems: `C50_sub_path_partial`, `C50_multibyte`, `C50_session_partial`

### C51 Sort order is total and independent of read order — proved

Uniqueness of sorted permutations. Also of resumed sessions (Props/ResumedNodes).

Theorems: `C51_session`, `C51_session_order`, `C51_session_ascending`, `C51_resumed`, `C51_same_session`, `C51_same_order`, `C51_ascending`

### C52 Extended glob — partial

Model of the extended glob builder and matcher against a declarative description; whole sessions by comparison with the same without filter. False of files without Parent in a resume by spawning (finding 68): C52_unparented, partial there.

Theorems: `C52_session`, `C52_resumed_partial`, `C52_unparented`, `C52_glob_ex`, `C52_missing_separator`, `C52_excluded_extension`

### C53 Poly filter — proved

Poly filter model; whole sessions by comparison with the same without filter; sessions on a file root by `Proofs/Dying`. Panics out of a resume by spawning (finding 57).

Theorems: `C53_session_root`, `C53_session`, `C53_poly`, `C53_nested`, `C53_root_file_panics`, `C53_resumed_panics`

### C54 Entry information failures are reported on the node — proved

Simulation between trees that differ in info errors only. Also of resumed sessions (Props/ResumedNodes). Nothing else changes: of whole sessions, prime and resumed, with any configuration (Props/Informed), by running both side by side through the chain of links.

Theorems: `C54_session`, `C54_session_nothing_else`, `C54_resumed_nothing_else`, `C54_error_on_node`, `C54_nothing_else`, `C54_resumed`

### C55 Resume refuses a mismatched file system — proved

Decision logic of the resume platform.

Theorems: `C55_mismatch`, `C55_relative_to_absolute`

### C56 Metrics registry — proved

The registry as a function from metrics to counters; closed form of the count over all operation histories.

Theorems: `C56_count_is_sum`, `C56_known_iff_registered`, `C56_never_decreases`

### C57 Descend and ascend in resumed sessions — partial

Spawn is a sequence of navigations, each of which is a complete tour; fastward is the tail of the tour the dozing session makes (C19), so that Ascend events lack their Descend (finding 44): counterexample, partial.

Theorems: `C57_spawn_partial`, `C57_fastward_partial`, `C57_fastward_unbalanced`

### C58 Reported depth in resumed sessions — partial

Depth of every node of a resumed session in terms of paths; right for fastward, too large for spawn outside the saved path's directory (finding 45): counterexamples, partial. Also of resumed sessions (Props/ResumedNodes).

Theorems: `C58_fastward_partial`, `C58_spawn_partial`, `C58_limit_partial`, `C58_spawn_cuts_early`, `C58_wrong_scope`

### C59 Node paths name the visited entries — proved

filepath.Clean and Join on character lists against an independent reading of texts as places (Spec/Lexical): cleaning keeps the place, joining adds an entry; injectivity.

Theorems: `C59_path_names_entry`, `C59_same_place_same_paths`, `C59_unclean_tree_unmatched`, `C59_session`

### C60 Errors are recognisable — partial

Error trees with errors.Is against an inductive membership relation; a table of constructors and predicates for all arguments and contexts; then the error of whole sessions in terms of their input (from C28, C29, C55, C17), primary and resumed.

Theorems: `C60_is`, `C60_recognised`, `C60_benign`, `C60_destination`, `C60_prime_partial`, `C60_child_partial`, `C60_node_partial`, `C60_sample_partial`, `C60_poly_partial`, `C60_resume_partial`, `C60_panic_partial`, `C60_pool_unrecognised`, `C60_resumed_child_partial`, `C60_resumed_node_partial`, `C60_resumed_sample_partial`, `C60_resumed_poly_partial`, `C60_resumed_panic_partial`

### C61 IsComplete tells whether the traversal was finished — partial

IsComplete of whole sessions in the model; by induction on crown for spawn. Prime and fastward sessions say yes even after an error (finding 50): counterexample, partial.

Theorems: `C61_prime_complete`, `C61_resume_complete`, `C61_spawn_partial`, `C61_run_spawn_partial`, `C61_false_in_general`

### C62 A navigator can be used again — partial

What is kept between calls of Navigate as a state (Model/Again); simulation of a call that starts with counts by one that starts without, for primary sessions and for fastward resumes (whose guardian is decorated again by each call); invariants for sleeping navigators. Metrics add up, hibernation state is kept and a second spawn overflows (finding 51): counterexamples, partial.

Theorems: `C62_again_partial`, `C62_unbuilt`, `C62_asleep_for_good`, `C62_spawn_once`, `C62_false_in_general`, `C62_spawn_later`, `C62_fastward_partial`

### C63 An interrupted and resumed traversal loses nothing — partial

Author and drive as model (Model/Author); a store invariant ties the file to the saved state, C44 loads it, C19 and C20 say what is delivered; induction over the handlers, for both strategies (Props/Saga, Props/Spawns); a single spawning resume also for Files and Directories (Props/SagaFiles, Props/SagaDirs). False for panics at the root or directly inside it, for Files resumed by fastward, for spawn on trees not in byte order and for spawn after a panic at a node without Parent (findings 9-20, 43, 52): counterexamples, partial.

Theorems: `C63_fastward_partial`, `C63_spawn_partial`, `C63_false_in_general`, `C63_spawn_directories_partial`, `C63_spawn_files_partial`, `C63_spawns_partial`, `C63_spawns_lose`

### C64 Enumerated values print their names — partial

The generated tables and String functions as data (Model/Enums), the documented names transcribed separately (Spec/Enums); finite checks of the tables for the named values, arithmetic and injectivity of decimal notation for all others. Two metrics share a text and untyped constants print as numbers (finding 53): counterexample, partial.

Theorems: `C64_documented_partial`, `C64_other_values`, `C64_total`, `C64_distinct_partial`, `C64_false_in_general`, `C64_scopes`

### C65 Messages of the bus — proved

Messages, contexts, options and the sequential generator (Model/Message); induction over histories with the generator's count as invariant, injectivity of the padded decimal notation.

Theorems: `C65_identifiers_unique`, `C65_plain`, `C65_options`, `C65_last_option`

### C66 Outputs of a concurrent session — partial

The pool with its output channel and the reader as a state machine (Model/Output); permutation invariant and a decreasing measure. An output function that reads the stream before returning deadlocks (finding 54) and without a reader the calls are bounded: proved, so progress is partial.

Theorems: `C66_at_most_once`, `C66_bounds`, `C66_exactly_once`, `C66_progress_partial`, `C66_ends_partial`, `C66_can_finish_partial`, `C66_in_place_deadlock`, `C66_unread`, `C66_sizes`

### C67 Panics of listeners, hooks and of the skip and panic handlers are contained — partial

The navigators once more with every callback allowed to panic (Model/Mortal); simulation against the ordinary model up to the first panic and one structural invariant for what comes after; lifted to whole sessions, primary and resumed, in Model/Frail, where listeners of all events, hooks, fault, skip and panic handlers may panic; which panics leave Navigate is stated there in terms of what the client supplied (Props/Contained). The depth part fails for OnDescend listeners (finding 24): proved as a counterexample.

Theorems: `C67_contained`, `C67_root_escapes`, `C67_each_callback`, `C67_prime`, `C67_resume`, `C67_calls`, `C67_noticed`, `C67_resume_calls`, `C67_resume_noticed`, `C67_begin_escapes`, `C67_end_escapes`, `C67_conservative`, `C67_prefix`, `C67_first_panic`, `C67_escapes_iff`, `C67_result`, `C67_balanced`, `C67_saves`, `C67_depth_partial`, `C67_depth_leak`, `C67_descend_leaks`

### C68 Changing the loaded state of a resume — partial

resumeExtent.options with the add-ons (Model/Addons); the edited document is built with the encoder of Model/Persist and read back by its decoder. On a file that does not load OnLoad is given nil and may panic out of Extent (finding 55): partial.

Theorems: `C68_edit`, `C68_edit_run`, `C68_inert`, `C68_load_failure_partial`, `C68_load_failure_panics`, `C68_panics_iff`

### C69 File systems that change while they are walked — proved

The navigators with every question to the file system answered by an arbitrary function of the state of everything outside (Model/Live). By induction on the levels a still tree, and under natural hooks a still file system, is put together on which the ordinary model does the same; that transfers the other properties. Ghost sights record what was seen when; a measure gives termination with a depth limit. For resumed sessions (Model/LiveResume) the still disk is glued, step by step of spawn's way up, from the listing of the parent, the trees below its remaining entries, and the disk of the rest.

Theorems: `C69_frozen`, `C69_visited`, `C69_moment`, `C69_complete`, `C69_order`, `C69_balanced`, `C69_ends`, `C69_fuel`, `C69_still`, `C69_session`, `C69_session_complete`, `C69_session_ends`, `C69_session_still`, `C69_endless`, `C69_resumed`, `C69_resumed_ends`, `C69_resumed_still`, `C69_resumed_fuel`

### C70 Filter definitions used again — proved

The builders once more with the definitions in memory, at addresses that may be shared (Model/Wear). Building in memory gives what building from copies gives and leaves a memory that is alike: the same but for scopes that are not looked at (extended globs) or are set again (parts of poly filters). Likeness is transitive, preserved by persistence and by all library options, and alike options build the same session.

Theorems: `C70_again`, `C70_options`, `C70_touched`, `C70_saved`

### C71 Any file to resume from — partial

Unmarshal and the building of resume sessions on arbitrary documents, with nil pointers for missing parts (Model/Foreign). By cases on the document; likeness of documents is inductive and every decoder respects it. A value of the wrong kind at any place that is read makes the session unbuildable with nothing done (C71_misfit; the expected kinds are stated in Spec/Expected). That there is no panic is false of documents without options or without state, which is proved.

Theorems: `C71_any_partial`, `C71_unreadable`, `C71_alike`, `C71_written`, `C71_wrong_type`, `C71_panics`, `C71_panics_stateless`, `C71_misfit`

### C72 Parents of the nodes — partial

The chain of Parents is part of a node in the kernel model. By induction over the tree each node of the enumeration has the nodes of the directories around it as Parents; sessions deliver parts of the enumeration. That resumes by spawning do so up to the root is false, which is proved.

Theorems: `C72_session`, `C72_delivered`, `C72_fastward_partial`, `C72_spawn_partial`, `C72_spawn_orphans`

### C73 Observers do not disturb — proved

Relational: a simulation between the sessions of two clients of different state types, through options, building, every link of the chain, the traversal and both resume strategies. Observers and interference are instances.

Theorems: `C73_session`, `C73_resumed`, `C73_observers`, `C73_observers_resumed`

### C74 What errors say — partial

The messages with their ids and templates, the error variables with their data, and Error() as a function of the translation (Model/Texts); the English texts transcribed separately from the names (Spec/Texts); case analysis for the variables and constructors with their arguments, induction over templates for arbitrary translations. The text of ErrPolyFilterIsInvalid is that of another error and the two errors of a panic have none: proved. li18ngo and go-i18n are assumed to fill in templates.

Theorems: `C74_resumed_panic`, `C74_resumed_separator`, `C74_variables_partial`, `C74_poly_says_nil`, `C74_distinct_partial`, `C74_made_partial`, `C74_panic_says_nothing`, `C74_pattern`, `C74_fields_partial`, `C74_translations`, `C74_wrapped`, `C74_shown`, `C74_session_partial`, `C74_session_panic`, `C74_separator`, `C74_mismatch`

### C75 Handing over the filters — partial

Building of filters with their names, and the calls of the sink (Model/Sink), shown to make the filters of Model/Filters; what a definition should have its filter say is in Spec/Sink; case analysis over definitions, and a fold over the options for resumed sessions. The sample filter is never handed over: proved (C75_sampler_kept), hence partial. A resumed session calls a sink only if it is given again along with definitions, which then replace the saved ones (C75_restored).

Theorems: `C75_handed_partial`, `C75_resumed_partial`, `C75_fair`, `C75_restored`, `C75_applies`, `C75_unmade`, `C75_sampler_kept`, `C75_in_vain`

### C76 Resuming on a file system that changed — partial

The disk of the resume is a parameter of its own, so nothing ties it to the one that was interrupted. What a spawn resume lists is characterised by the bytewise order of paths (induction along the saved path), necessity of the directories being listable by C12's argument. Fastward delivers nothing once the saved path is gone: proved (C76_gone), hence partial; saved paths for which resumes fail anyway (C19, C20) are excluded by hypothesis. A file system that changes during the resume itself is C69's subject.

Theorems: `C76_spawned`, `C76_fastward_partial`, `C76_gone`

### C77 Skip sentinels while resuming — partial

Two runs compared. A spawn resume is a list of navigations that does not depend on the client, followed by an ending (legsOf, crown_legs); each navigation is pruned as in C08, they lie apart from each other, so the whole is. A fastward resume is a session whose client dozes (C19), hence C08 for it. Spawn resumes end at the first sentinel for a node a navigation starts from: proved (C77_spawn_ends), hence partial. Universal and Directories; for Files C77_spawn_files_partial: SkipDir anywhere, or any error at or directly in a start, ends the resume (C77_spawn_files_ends).

Theorems: `C77_spawn_partial`, `C77_fastward`, `C77_spawn_ends`, `C77_spawn_files_partial`, `C77_spawn_files_ends`


## 7. Testing the theorems

`seeded/LOG.jsonl` records edits of the model's definitions, each a realistic bug, made in a scratch copy: what was edited, the claim it breaks,
the theorems (or examples) whose proof failed, and what was tightened when nothing failed. A mutation counts as caught when a property theorem, or a lemma
on which property theorems rest, no longer holds; `property_modules_no_longer_building` lists the property modules that rest on the lemmas that failed.

## 8. Checking the model against the repository's tests

No Go code is run here, but the repository's tests say what the code does, and the model can be run. `Verif/Conform` holds the fixture of those tests (the
musico index, as a tree) and what they look at; the other modules there are generated from the test tables: the 113 entries of vanilla, cascade, dirs-with-files,
glob, glob-ex, regex, poly, hybrid, custom, errata, hibernate, with-filter and sampling, the 15 entries of the resume table for each of the two strategies, and
the cases of save_test, resume-error_test and director-error_test, transcribed by hand. Each entry is an `example` that runs a whole session of the
model (`walkPrime`, `walkResume`) and compares the number of invocations, the metrics, the names that must and must not be visited, the children
counts and the returned error with what the Go test expects; the kernel evaluates it. All of them hold. These examples are tests of the model (that it is
the program the tests describe), they are not proofs of any property.
