{"id": "C01", "title": "Universal traversal is complete and duplicate free", "statement": "With the Universal subscription and a handler that always returns nil, Navigate calls the handler exactly once for the tree root and exactly once for every file and directory below it that the read hook returns (by default everything except .DS_Store entries), and for nothing else; it then returns a nil error.", "quantifier": "every finite directory tree of any shape, depth and width, every sort hook that permutes its input, both values of SortFilesFirst", "why_tests_cant": "a unit test visits a handful of fixture trees; completeness must hold for every tree", "anchors": ["internal/kernel/navigator-agent.go:travel", "internal/kernel/navigator-universal.go:Traverse", "pref/defaults.go:DefaultReadEntriesHook"]}
{"id": "C02", "title": "Pre-order and sibling order", "statement": "The handler is called for a directory before it is called for anything inside it, everything inside a directory is delivered before the directory's next sibling, and siblings are delivered in the order given by the sort hook, directories before files (files before directories when SortFilesFirst is set).", "quantifier": "every tree and every pair of visited nodes", "why_tests_cant": "tests compare a few expected listings, the order is claimed for every pair of nodes of every tree", "anchors": ["internal/kernel/navigator-agent.go:travel", "internal/kernel/contents.go:All", "internal/kernel/navigation-vapour.go:Pick"]}
{"id": "C03", "title": "Files subscription delivers exactly the files", "statement": "With the Files subscription and a handler returning nil, the handler is called exactly once for every file of the tree and never for a directory, in the same relative order as the Universal traversal.", "quantifier": "every tree (a directory that cannot be read counting as empty)", "why_tests_cant": "needs all trees", "anchors": ["internal/kernel/navigator-files.go:Traverse", "internal/kernel/navigator-agent.go:travel"]}
{"id": "C04", "title": "Directories subscriptions deliver exactly the directories", "statement": "With the Directories or DirectoriesWithFiles subscription and a handler returning nil, and a tree root that is a directory, the handler is called exactly once for every directory of the tree and never for a file, in the same relative order as the Universal traversal.", "quantifier": "every tree rooted at a directory", "why_tests_cant": "needs all trees", "anchors": ["internal/kernel/navigator-directories.go:Traverse", "internal/kernel/navigator-factory.go:newImpl"]}
{"id": "C05", "title": "Depth limit", "statement": "WithDepth(n), n>0, restricts a traversal to exactly the nodes whose depth below the root is at most n, changing neither the order nor the reported data of the nodes that remain; n=0 means no limit; WithNoRecurse behaves exactly as WithDepth(1).", "quantifier": "every tree, every n, every subscription, every handler", "why_tests_cant": "the boundary must be right for all n and all shapes", "anchors": ["internal/level/periscope.go:Descend", "internal-traverse-defs.go:afterwards", "internal/kernel/mediator.go:descend"]}
{"id": "C06", "title": "Reported depth is the true depth", "statement": "Every node given to the handler reports in Extension.Depth its true distance from the traversal root, whatever was skipped, failed or cut off earlier in the traversal.", "quantifier": "every tree, every history of handler replies (nil, SkipDir, SkipAll, error), every depth limit", "why_tests_cant": "depth is kept in a counter shared by the whole session; a leak shows only after particular histories", "anchors": ["internal/level/periscope.go", "internal/kernel/extend.go:extend", "internal/kernel/mediator.go:descend", "internal/kernel/mediator.go:ascend"]}
{"id": "C07", "title": "Descend and ascend events are balanced and well nested", "statement": "For every node entered exactly one Descend event is published before its handler call and exactly one Ascend event for the same node after everything inside it, in stack order; this holds also when the handler returns errors or panics, and the session's depth counter is back at its starting value when Navigate returns.", "quantifier": "every tree, every history of handler replies including panics, every skip handler, every depth limit", "why_tests_cant": "bracketing must survive every abnormal exit at every point", "anchors": ["internal/kernel/mediator.go:descend", "internal/kernel/mediator.go:ascend", "internal/kernel/navigator-universal.go:Traverse", "internal/kernel/navigator-directories.go:Traverse", "internal/kernel/navigator-files.go:Traverse"]}
{"id": "C08", "title": "SkipDir from the handler prunes exactly that subtree", "statement": "With the Universal, Directories and DirectoriesWithFiles subscriptions, a handler that returns fs.SkipDir for a node suppresses exactly the nodes below that node: everything outside that subtree is visited as if nil had been returned, and unless the node is the root the error is not returned by Navigate.", "quantifier": "every tree, every handler history, every node at which SkipDir is returned", "why_tests_cant": "the set of suppressed nodes must be exactly right for each position in each tree", "anchors": ["internal/kernel/navigator-agent.go:travel", "internal/kernel/navigator-universal.go:Traverse", "internal/kernel/navigator-directories.go:Traverse"]}
{"id": "C09", "title": "SkipAll from the handler ends the traversal", "statement": "A handler that returns fs.SkipAll is never called again in that session.", "quantifier": "every tree, every handler history, every subscription", "why_tests_cant": "a test with SkipAll at the last node cannot tell; must hold at every position", "anchors": ["internal/kernel/navigator-agent.go:travel"]}
{"id": "C10", "title": "Skip sentinels with the Files subscription", "statement": "With the Files subscription, fs.SkipDir returned for a file skips only the remaining entries of that file's directory and the traversal goes on elsewhere; fs.SkipAll ends the traversal.", "quantifier": "every tree, every handler history", "why_tests_cant": "must hold at every position in every tree", "anchors": ["internal/kernel/navigator-agent.go:travel", "internal/kernel/navigator-files.go:Traverse"]}
{"id": "C11", "title": "A genuine handler error stops the traversal and is returned verbatim", "statement": "When the handler returns an error that is neither fs.SkipDir nor fs.SkipAll, no handler call follows it and Navigate returns exactly that error value.", "quantifier": "every tree, every handler history, every position of the failure, every subscription", "why_tests_cant": "must hold from every depth of the recursion", "anchors": ["internal/kernel/navigator-agent.go:travel", "internal/kernel/navigator-agent.go:top"]}
{"id": "C12", "title": "A nil error from Navigate means nothing failed", "statement": "If Navigate of a fresh session returns a nil error then the root could be stat'ed or the fault handler swallowed the failure, no handler call returned a genuine error, and no handler call panicked.", "quantifier": "every tree, every handler history", "why_tests_cant": "it is a statement about the absence of swallowed failures in any history", "anchors": ["internal/kernel/navigator-agent.go:travel", "internal/kernel/navigator-agent.go:top", "driver.go:Navigate"]}
{"id": "C13", "title": "Invocation metrics count handler calls", "statement": "At every moment, the MetricNoFilesInvoked and MetricNoDirectoriesInvoked counters equal the number of times the handler has been called in this session for files and for directories (plus the values carried over by a resume), whatever plugins are active and whatever the handler returns.", "quantifier": "every tree, every handler history, every combination of filter, hibernation, sampling and resume plugins", "why_tests_cant": "counting must be exact for every history, including the call that panics", "anchors": ["internal/kernel/guardian.go:anchor.Next", "internal/enclave/supervisor.go"]}
{"id": "C14", "title": "Failure to stat the root", "statement": "When querying the status of the tree root fails, the fault handler is consulted exactly once with the failing path and error, its return value is the error returned by Navigate (by default the original error), and the handler is never called. A resume by spawn that finds something it would navigate from missing asks the fault handler too: if it answers nil only what lies there is left out, otherwise the resume ends with the answer.", "quantifier": "every error value, every fault handler, every subscription", "why_tests_cant": "must hold for arbitrary user supplied fault handlers", "anchors": ["internal/kernel/navigator-agent.go:top", "pref/defects.go", "pref/defaults.go:DefaultFaultHandler"]}
{"id": "C15", "title": "An unreadable directory is isolated", "statement": "With default options, a directory whose contents cannot be read changes nothing about the visit of any node outside that directory; with Universal and Directories the handler is still called for the directory itself, and the traversal does not return the read error.", "quantifier": "every tree, every set of unreadable directories", "why_tests_cant": "needs all placements of failures", "anchors": ["internal/kernel/navigation-fs.go:read", "internal/kernel/navigator-universal.go:Traverse", "internal/kernel/navigator-directories.go:Traverse", "internal/kernel/navigator-files.go:Traverse"]}
{"id": "C16", "title": "Skip handler verdicts", "statement": "A skip handler that answers SkipNone leaves the traversal unchanged; one that answers SkipDir with a nil error for a directory suppresses exactly what is below that directory; one that answers SkipAll ends the traversal.", "quantifier": "every tree, every skip handler, every subscription", "why_tests_cant": "verdict may be issued at any node", "anchors": ["pref/defects.go:WithSkipHandler", "internal/kernel/navigator-universal.go:Traverse", "internal/kernel/navigator-directories.go:Traverse", "internal/kernel/navigator-files.go:Traverse"]}
{"id": "C17", "title": "A panicking handler is rescued, saved and reported", "statement": "When the handler panics, no further handler call is made, the panic handler is consulted exactly once, and Navigate returns normally with an error that reports the panic and where the state was saved (or why it was not).", "quantifier": "every tree, every handler history, every position of the panic, every panic handler outcome", "why_tests_cant": "crash points are unbounded in number", "anchors": ["internal/kernel/navigator-agent.go:travel", "pref/defaults.go:DefaultPanicHandler", "locale/messages-errors.go:NewTraversalSavedError"]}
{"id": "C18", "title": "Content of the saved state", "statement": "The state saved after a panic names the original tree root, the subscription, the directory that contains the node whose handler call panicked, that directory's depth, and the metrics accumulated so far including the panicking call.", "quantifier": "every tree, every crash point at depth one or more", "why_tests_cant": "crash points are unbounded in number", "anchors": ["internal/kernel/navigator-agent.go:travel", "internal/kernel/author.go:write", "internal/kernel/navigation-vapour.go:active"]}
{"id": "C19", "title": "Fastward resume delivers exactly the remaining suffix", "statement": "A fastward resume calls the handler for exactly the nodes from the saved current path onwards, in the order in which the original traversal would have visited them.", "quantifier": "every tree, every saved position that an interrupted session can produce, every subscription", "why_tests_cant": "every crash point combined with every tree", "anchors": ["internal/feat/resume/strategy-fastward.go", "internal/kernel/mediator.go:Snooze"]}
{"id": "C20", "title": "Spawn resume covers everything not yet visited", "statement": "A spawn resume calls the handler for the saved current path and for every node the original traversal had not reached by then, each exactly once, then reports completion.", "quantifier": "every tree, every saved position that an interrupted session can produce, both SortFilesFirst settings", "why_tests_cant": "every crash point combined with every tree", "anchors": ["internal/feat/resume/strategy-spawn.go", "internal/kernel/mediator.go:Spawn", "internal/kernel/mediator.go:Bridge"]}
{"id": "C21", "title": "Filters decide callbacks, not navigation", "statement": "With a node filter the handler is called exactly for the visited nodes the filter matches, in the same order, while Descend/Ascend events and the set of entered directories are those of the unfiltered traversal (handler replies being equal).", "quantifier": "every tree, every filter predicate, every handler that never fails", "why_tests_cant": "must hold for every predicate and tree", "anchors": ["internal/feat/filter/scheme-native.go", "internal/feat/filter/scheme-custom.go:matchNext", "internal/kernel/guardian.go:iterate"]}
{"id": "C22", "title": "Filter conservation", "statement": "With a node filter active, for files and for directories separately, nodes reaching the filter = handler calls + filtered-out count, at every moment.", "quantifier": "every tree, every filter, every handler history", "why_tests_cant": "accounting over all histories", "anchors": ["internal/feat/filter/scheme-custom.go:matchNext", "internal/kernel/guardian.go:anchor.Next"]}
{"id": "C23", "title": "Filter scope and negation", "statement": "A glob or regex filter evaluates its pattern only on nodes whose scope intersects the filter's scope, negation flips the verdict on exactly those nodes, all other nodes get the IfNotApplicable verdict (true unless set to false), and an undefined scope means all scopes.", "quantifier": "every filter definition and every node", "why_tests_cant": "scope is a 32 bit mask, the node space is unbounded", "anchors": ["internal/filtering/base.go", "internal/filtering/glob.go", "internal/filtering/regex.go", "internal/filtering/builders.go:applicable", "enums/filter-scope-en.go"]}
{"id": "C24", "title": "Node scope classification", "statement": "Every node given to the handler carries exactly the scope bits that describe it: file or directory; for directories tree exactly at depth 0, top exactly at depth 1, leaf exactly when it has no sub directories, intermediate exactly when none of tree, top, leaf apply; for files the leaf bit.", "quantifier": "every tree and every node", "why_tests_cant": "all shapes and depths", "anchors": ["internal/level/periscope.go:Scope", "internal/kernel/extend.go:extend"]}
{"id": "C25", "title": "Hibernation delivers one window", "statement": "With a wake and a sleep condition the handler is called for exactly the visited nodes from the first one matching the wake condition up to the first later one matching the sleep condition, the wake node included and the sleep node excluded by default, each inclusivity switch changing just that end; the Wake and Sleep events fire at most once each, at those nodes.", "quantifier": "every sequence of visited nodes, every pair of conditions, all four inclusivity settings", "why_tests_cant": "must hold for every sequence", "anchors": ["internal/feat/hiber/hibernate-simple-profile.go", "internal/feat/hiber/hibernate-defs.go:launch"]}
{"id": "C26", "title": "Sleep ends the traversal", "statement": "Once the sleep condition has been met no further node is navigated to.", "quantifier": "every tree, every sleep condition", "why_tests_cant": "all trees and positions", "anchors": ["internal/feat/hiber/hibernate-simple-profile.go", "internal/kernel/navigator-agent.go:travel"]}
{"id": "C27", "title": "Begin and End bracket every session", "statement": "Begin is published exactly once, with the tree path, before any handler call, and End exactly once, after the last, for every session that was built successfully and does not crash, whatever errors the traversal returns.", "quantifier": "every tree, every handler history", "why_tests_cant": "all histories", "anchors": ["driver.go:Navigate", "session.go", "internal/kernel/mediator.go:Ignite", "internal/kernel/mediator.go:Bye"]}
{"id": "C28", "title": "A session that cannot be built does nothing", "statement": "If the facade is invalid, an option returns an error, or a plugin cannot be registered, Navigate returns that error, never calls the handler and publishes neither Begin nor End.", "quantifier": "every facade, every list of options, every failing option position", "why_tests_cant": "any position and combination", "anchors": ["builders.go:buildAll", "scaffold.go", "internal/kernel/navigator-hades.go", "synchronise.go"]}
{"id": "C29", "title": "Facade validation", "statement": "A primary facade is accepted exactly when tree path, subscription and handler are all given, and otherwise the error names the first missing one in that order; a resume facade is accepted exactly when restore path, strategy and handler are given.", "quantifier": "every facade value", "why_tests_cant": "full case analysis including the resume side", "anchors": ["pref/facade.go", "scaffold.go:newPrimaryPlatform", "scaffold.go:newResumePlatform"]}
{"id": "C30", "title": "Sampling bounds", "statement": "With sampling of f files and d directories, at most f files and d directories of each directory are visited: the first f (last f in reverse) files and first d (last d in reverse) directories the file system returned, in their original relative order; zero means all; asking for more than exist yields all.", "quantifier": "every directory listing, all f, d, both directions", "why_tests_cant": "boundaries for all sizes", "anchors": ["internal/feat/sampling/controller.go:union"]}
{"id": "C31", "title": "Sample filter precedes sampling", "statement": "With a sample filter, quotas are filled from the entries that satisfy the filter; entries of a kind outside the filter scope are not filtered.", "quantifier": "every directory listing, every filter predicate, every scope", "why_tests_cant": "all listings and predicates", "anchors": ["internal/filtering/sample.go", "internal/feat/filter/scheme-sampler.go", "director.go:features"]}
{"id": "C32", "title": "Sampling does not hide read failures", "statement": "When a directory cannot be read while sampling is active the skip handler is still told about the error.", "quantifier": "every tree and every unreadable directory", "why_tests_cant": "all placements", "anchors": ["internal/feat/sampling/controller.go:sample"]}
{"id": "C33", "title": "Children of DirectoriesWithFiles", "statement": "With DirectoriesWithFiles every directory node delivered carries in Children exactly its files (those satisfying the child filter when there is one) in sort order, and found + filtered-out child metrics equal the number of files in the delivered directories.", "quantifier": "every tree, every child filter, every handler history", "why_tests_cant": "all trees and predicates", "anchors": ["internal/feat/nanny/nanny-plugin.go", "internal/feat/filter/scheme-nanny.go", "internal/filtering/child.go"]}
{"id": "C34", "title": "Plugin chain order", "statement": "The decorators around the handler always run in the documented order fastward, hibernation, nanny, filter, sampler, handler last, each at most once, nanny only when no filter is active.", "quantifier": "every combination of active plugins", "why_tests_cant": "all combinations and orders of activation", "anchors": ["manifest.go:manifest", "internal/kernel/guardian.go:arrange", "builders.go:buildAll"]}
{"id": "C35", "title": "Chain short circuit", "statement": "A decorator that declines a node, or fails, prevents every later decorator and the handler from running for that node, and its error (if any) is what the navigator sees.", "quantifier": "every chain of links with arbitrary behaviour", "why_tests_cant": "arbitrary links", "anchors": ["internal/kernel/guardian.go:iterate"]}
{"id": "C36", "title": "Positional set", "statement": "Any sequence of Insert, All and Delete leaves the set containing the anchor and exactly the inserted-and-not-since-deleted members of the declared order; Items lists them in declared order without duplicates and with the anchor last, Insert reports true exactly when the set grew, Count, Contains, Top and Position agree with Items.", "quantifier": "every declared order (with duplicates and the anchor anywhere), every operation sequence", "why_tests_cant": "operation histories are unbounded and the set caches its listing", "anchors": ["collections/positional-set.go"]}
{"id": "C37", "title": "Stack", "statement": "Any sequence of operations behaves as a LIFO stack: Pop returns the most recently pushed item not yet popped, Current peeks it, Size counts, and Pop/Current on an empty stack report an error without changing it.", "quantifier": "every operation sequence", "why_tests_cant": "unbounded histories", "anchors": ["collections/stack.go"]}
{"id": "C38", "title": "Iterators", "statement": "A forward (reverse) iterator run from Start while Valid yields every element exactly once in (reverse) order and then only the zero value; RunAll processes elements in that order up to and including the first one for which the while predicate is false; Reset makes it behave as new.", "quantifier": "every slice, every predicate", "why_tests_cant": "all lengths", "anchors": ["collections/iterators.go"]}
{"id": "C39", "title": "Life-cycle notification", "statement": "Every listener registered for an event is called exactly once per publication in registration order, none when the event is muted, and muting then unmuting restores delivery.", "quantifier": "every sequence of registrations, mutes, unmutes and publications", "why_tests_cant": "unbounded histories", "anchors": ["life/events.go"]}
{"id": "C40", "title": "Mute all / unmute all", "statement": "After muting all events none is delivered, and unmuting all restores delivery of every one of the six events.", "quantifier": "every history of controls", "why_tests_cant": "all histories and events", "anchors": ["life/events.go:MuteAll", "life/events.go:UnmuteAll"]}
{"id": "C41", "title": "Hook tap and chain", "statement": "The effective hook is the default (or the last tapped replacement) followed by every chained function in registration order, each receiving its predecessor's result.", "quantifier": "every sequence of Tap and Chain", "why_tests_cant": "unbounded histories", "anchors": ["tapable/hooks.go", "tapable/broadcasters.go"]}
{"id": "C42", "title": "Message bus", "statement": "A message emitted on a registered topic reaches exactly once each handler currently registered whose matcher matches the topic; emitting on an unknown topic is an error and reaches nobody; deregistered handlers receive nothing; re-registering a key replaces the handler.", "quantifier": "every sequence of topic and handler registrations, deregistrations and emissions", "why_tests_cant": "unbounded histories", "anchors": ["internal/third/bus/broker.go"]}
{"id": "C43", "title": "Options are applied in order", "statement": "Settings are applied left to right on top of the defaults, nil settings are ignored, the first failing setting stops the process and its error is reported, and later settings win over earlier ones on the same field.", "quantifier": "every list of settings", "why_tests_cant": "all lists", "anchors": ["internal/opts/get-push.go:apply", "pref/options.go", "internal-traverse-defs.go:afterwards"]}
{"id": "C44", "title": "Persisted options survive a round trip", "statement": "Saving the options and loading them again yields the same navigation, sampling, filter, hibernation and worker-count settings.", "quantifier": "every options value", "why_tests_cant": "filter definitions nest; all values", "anchors": ["internal/persist/json-options.go", "internal/persist/marshaler.go"]}
{"id": "C45", "title": "The conversion self-check detects every difference", "statement": "The comparison made when saving and loading reports no difference exactly when the options and their persisted form agree on every persisted field.", "quantifier": "every pair of options and persisted options", "why_tests_cant": "all pairs", "anchors": ["internal/persist/comparison.go"]}
{"id": "C46", "title": "Resumed metrics continue the saved ones", "statement": "After a resume the invocation metrics of the session equal the saved values plus the handler calls made by the resume.", "quantifier": "every saved state, every tree, both strategies", "why_tests_cant": "all histories", "anchors": ["internal/kernel/mediator.go:Bridge", "core/metrics.go:Merge", "internal/enclave/supervisor.go"]}
{"id": "C47", "title": "Concurrent run calls the handler exactly once per node", "statement": "With Run, for every interleaving of navigator and workers, when the session has finished and the pool has drained the handler has been called exactly once for every node a walk would have visited, never more than the configured number of workers at a time, and handler errors do not cut the navigation short.", "quantifier": "every tree, every schedule of navigator and workers, every pool and queue size, every handler", "why_tests_cant": "schedules cannot be enumerated", "anchors": ["synchronise.go:concurrent.Navigate", "core/async.go"]}
{"id": "C48", "title": "Concurrent run never deadlocks", "statement": "While work remains, some worker or the navigator can always take a step, for every interleaving, as long as there is at least one worker.", "quantifier": "every schedule, every pool size at least one, every queue size including zero", "why_tests_cant": "schedules cannot be enumerated", "anchors": ["synchronise.go:concurrent.Navigate"]}
{"id": "C49", "title": "Composite scenarios select the right session", "statement": "Hydra, Hare, Tortoise and Goldfish select walk or run, prime or resume exactly as their flags say, and where two composites cover the same scenario they agree.", "quantifier": "every flag combination", "why_tests_cant": "complete table, stated as equivalences", "anchors": ["composites.go"]}
{"id": "C50", "title": "Sub path", "statement": "For a node whose path lies below the tree, the tree path followed by its SubPath is the path of its parent, with a trailing separator kept exactly when requested.", "quantifier": "every tree path and every node path below it", "why_tests_cant": "unbounded strings, including multi-byte names", "anchors": ["pref/defaults.go:DefaultSubPathHook", "internal/kernel/extend.go:extend"]}
{"id": "C51", "title": "Sort order is total and independent of read order", "statement": "With the default sort hook two listings of the same directory that differ only in the order in which the file system returned the entries are traversed in the same order, provided no two names of the same kind differ only in case; siblings of the same kind are visited in ascending case-insensitive order.", "quantifier": "every listing and every permutation of it", "why_tests_cant": "permutations are unbounded", "anchors": ["pref/defaults.go:DefaultCaseInSensitiveSortHook", "internal/kernel/contents.go:Sort"]}
{"id": "C52", "title": "Extended glob", "statement": "An extended glob filter judges a file by its parent directory glob and exclusion and then by the first sub-pattern in list order that decides, an excluded extension rejecting exactly the names with that extension; a pattern without the separator is rejected at build time.", "quantifier": "every pattern list and every node", "why_tests_cant": "all lists and names", "anchors": ["internal/filtering/glob-ex.go", "internal/filtering/builders.go:splitGlobExPattern"]}
{"id": "C53", "title": "Poly filter", "statement": "A poly filter never rejects a directory and accepts a file exactly when its file filter accepts the file and its directory filter accepts the file's parent; a nested poly filter is rejected at build time.", "quantifier": "every pair of constituent filters and every node", "why_tests_cant": "all filters and nodes", "anchors": ["internal/filtering/poly.go", "internal/filtering/builders.go:buildPolyNodeFilter"]}
{"id": "C54", "title": "Entry information failures are reported on the node", "statement": "When obtaining the info of an entry fails, the node is still visited, carries that error, and nothing else about the traversal changes.", "quantifier": "every tree and every set of failing entries", "why_tests_cant": "all placements", "anchors": ["internal/kernel/navigator-agent.go:travel", "core/node.go:New"]}
{"id": "C55", "title": "Resume refuses a mismatched file system", "statement": "Resuming with a traverse (resume) file system whose relative/absolute nature differs from the saved session is rejected with the corresponding error before anything is visited.", "quantifier": "every saved description and every forest", "why_tests_cant": "complete table in context", "anchors": ["scaffold.go:newResumePlatform", "scaffold.go:buildForest"]}
{"id": "C56", "title": "Metrics registry", "statement": "The value reported for a metric is exactly the sum of everything added to it (ticks, increments and merged-in values of a loaded session) since it was first registered: registering it again loses nothing, updates of one metric never affect another, a value never decreases and an unregistered metric reports zero.", "quantifier": "every history of registering, ticking, incrementing and loading operations on any metrics", "why_tests_cant": "unbounded histories", "anchors": ["internal/enclave/supervisor.go:Supervisor", "core/metrics.go:Metrics.Merge"]}
{"id": "C57", "title": "Descend and ascend in resumed sessions", "statement": "Also in a resumed session, by either strategy, every Descend a client sees has its matching Ascend and every Ascend its Descend, properly nested, with the handler called for a node between the two.", "quantifier": "every saved state, file system, option set and sequence of handler replies, either strategy", "why_tests_cant": "all trees, saved positions and replies", "anchors": ["internal/feat/resume/strategy-spawn.go", "internal/feat/resume/strategy-fastward.go", "internal/kernel/navigator-agent.go:travel"]}
{"id": "C58", "title": "Reported depth in resumed sessions", "statement": "A resumed session delivers each node with its depth below the original tree path, so that a depth limit selects the same nodes as it does in an uninterrupted traversal.", "quantifier": "every saved state, file system, option set and sequence of handler replies, either strategy", "why_tests_cant": "all trees, saved positions and limits", "anchors": ["internal/feat/resume/strategy-spawn.go:crown", "internal/kernel/mediator.go:Bridge", "internal/level/periscope.go"]}
{"id": "C59", "title": "Node paths name the visited entries", "statement": "Whatever the text of the tree path (with '.', '..', doubled or trailing separators), the path given for each node below the root is clean and names, read element by element, exactly the entry reached from the place the tree path names by the names of the node; different nodes have different paths, and two spellings of the same tree path give the same paths.", "quantifier": "every text of a tree path, file system with proper names and option set", "why_tests_cant": "all texts and trees", "anchors": ["internal/kernel/navigator-agent.go:travel", "internal/kernel/extend.go"]}
{"id": "C60", "title": "Errors are recognisable", "statement": "Whatever a client wraps around an error or joins to it, errors.Is and the exported Is…Error functions recognise the library's errors: each function says yes to what the constructor of its kind makes, for all arguments, and to no other error of the library. The error Navigate returns tells exactly what was wrong: which part of a facade is missing, a facade of the wrong kind, what is wrong with a filter definition, a file that contradicts itself, file systems that do not match or are missing, a rescued panic (with the file's name if the state was saved), a worker pool that could not be created.", "quantifier": "every error tree, every constructor argument, and every session", "why_tests_cant": "all trees of wrapped and joined errors and all sessions", "anchors": ["core/errors.go", "locale/messages-errors.go", "stock/error.go:IsBenignError", "internal/persist/comparison.go:Unwrap", "synchronise.go:Navigate", "pref/facade.go:Validate", "scaffold.go"]}
{"id": "C61", "title": "IsComplete tells whether the traversal was finished", "statement": "After Navigate has returned, the session of the result says IsComplete() exactly if the traversal reached its end: true whenever Navigate returned no error, for prime sessions and both ways of resuming, and false when it returned one.", "quantifier": "every facade, option set, file system, saved state and sequence of handler replies", "why_tests_cant": "all sessions and all points at which they may end", "anchors": ["core/core-defs.go:ResultCompletion", "extent.go:complete", "internal/feat/resume/strategy-spawn.go:crown", "internal/feat/resume/strategy-fastward.go:ifResult"]}
{"id": "C62", "title": "A navigator can be used again", "statement": "Navigate called again on the same navigator does what a new navigator with the same facade and options would do on what is then in the file system: the same error, handler calls, notifications and metrics.", "quantifier": "every facade, option set, number of calls, sequence of file systems and of handler replies, prime and resumed", "why_tests_cant": "all histories of calls", "anchors": ["driver.go:Navigate", "session.go:exec", "internal/kernel/mediator.go:Bridge", "internal/level/periscope.go", "internal/feat/resume/strategy-spawn.go:crown", "internal/feat/hiber/hibernate-simple-profile.go"]}
{"id": "C63", "title": "An interrupted and resumed traversal loses nothing", "statement": "When a handler panics, the session is saved, and the session resumed from the file that the error names begins with the directory of the node the handler panicked at. Repeated as often as handlers panic, every session delivers a contiguous part of what one uninterrupted session delivers, in order; and when the last one returns nil, every node of the uninterrupted session was accepted by the handler in some session.", "quantifier": "every file system, option set without filters, number of interruptions and history of handler calls and panics, either strategy", "why_tests_cant": "all histories of panics and resumes on all trees", "anchors": ["internal/kernel/navigator-agent.go:travel", "internal/kernel/author.go:write", "internal/persist/marshaler.go", "internal/feat/resume/strategy-fastward.go", "internal/feat/resume/strategy-spawn.go", "scaffold.go:newResumePlatform"]}
{"id": "C64", "title": "Enumerated values print their names", "statement": "The text of a value of an enumerated type is what the sources document for that constant, any other value prints as the type's name with the number in brackets, asking never panics, and different values of a type print differently.", "quantifier": "every enumerated type and every value of its underlying integer type", "why_tests_cant": "all 2^32 or 2^64 values of sixteen types", "anchors": ["enums/*-en-auto.go:String", "enums/*-en.go"]}
{"id": "C65", "title": "Messages of the bus", "statement": "All handlers of a topic are given the same message, carrying the topic, data, time and source; identifier and transaction are never empty; an identifier the bus makes up is never used for two messages over the life of the bus; a transaction already in the context is kept and handed on to the handlers' context; options are applied in order and only what they left empty is filled in.", "quantifier": "every history of registrations and emissions, every context and list of options", "why_tests_cant": "unbounded histories", "anchors": ["internal/third/bus/broker.go:Emit", "internal/third/bus/broker.go:EmitWithOpts", "internal/third/bus/broker.go:Sequential", "internal/services/broker.go:Reset"]}
{"id": "C66", "title": "Outputs of a concurrent session", "statement": "With an output function, the client reads exactly one output for every node the handler was called for, carrying the node and the error the handler returned, and the session does not deadlock, whatever the number of workers and the sizes of the channels.", "quantifier": "every tree, every schedule of navigator, workers and reader, every pool and channel size, every handler and every way the output function may read", "why_tests_cant": "schedules cannot be enumerated", "anchors": ["synchronise.go:concurrent.Navigate", "pref/options-concurrency.go:OutputOptions", "core/async.go:TraverseOutput", "internal-traverse-defs.go"]}
{"id": "C67", "title": "Panics of listeners, hooks and of the skip and panic handlers are contained", "statement": "Whichever callback panics (handler, a listener, a hook, fault, skip or panic handler), until then the session is as if it would not, and from then on no handler is called and no directory entered; a session whose verdict tells of no panic is one in which there was none. The navigator recovers from panics of callbacks other than those of the root: it backs out, every Descend that returned getting its Ascend, and calls the panic handler at most once per panic. Navigate returns the error of the panic handler's last answer; only a panic of a callback called for the root itself leaves Navigate. The panic handler is told the depth of the directory being travelled and the depth counter returns to its start.", "quantifier": "every file system, configuration and behaviour of all callbacks, any number of them panicking at any times", "why_tests_cant": "all combinations of panics at all points of all traversals", "anchors": ["internal/kernel/navigator-agent.go:travel", "internal/kernel/navigator-universal.go:Traverse", "internal/kernel/navigator-files.go:Traverse", "internal/kernel/navigator-directories.go:Traverse", "internal/kernel/mediator.go:descend", "internal/kernel/mediator.go:ascend", "pref/defects.go"]}
{"id": "C68", "title": "Changing the loaded state of a resume", "statement": "The first add-on with an OnLoad method is given the saved state before a resume session is built, and the session is then the one the file with the changed state in it would give; other add-ons have no effect. If the file cannot be loaded, Navigate reports that and nothing is called.", "quantifier": "every list of add-ons, saved document, edit of the state, strategy, settings, file system and handler, sequential and concurrent", "why_tests_cant": "all edits of all states", "anchors": ["extent.go:options", "extent.go:seek", "internal/enclave/enclave-defs.go:StateHandler", "internal/feat/resume/resume-plugin.go:Load", "internal/opts/load.go:Bind"]}
{"id": "C69", "title": "File systems that change while they are walked", "statement": "Files and directories may be created, removed and changed during a session, by the handler and the other callbacks or by anybody else. Every session is nevertheless, call by call, event by event and result by result, one on a disk that does not change, which holds in every directory what that directory held at one moment, when it was listed. A directory is listed right after its Descend event and before the handler is called for it; Info() of an entry is asked for just before it is entered. Nothing is delivered that was not listed, no path is delivered twice, nothing listed is missed by a client that accepts everything, depths are right and Descend and Ascend are balanced. With a depth limit every session ends; without one it may not, if there is a new directory inside each directory by the time it is listed. The same holds of resumed sessions, with either strategy. On a disk that does not change this is what all the other properties say.", "quantifier": "every behaviour of the file system, every set of callbacks, every configuration, every session length", "why_tests_cant": "all interleavings of changes with the traversal", "anchors": ["internal/kernel/navigator-agent.go:travel", "internal/kernel/navigator-agent.go:top", "internal/kernel/navigation-fs.go:read", "internal/kernel/navigator-universal.go:Traverse", "internal/kernel/navigator-universal.go:inspect", "internal/kernel/navigator-files.go:inspect", "internal/kernel/navigator-directories.go:inspect"]}
{"id": "C70", "title": "Filter definitions used again", "statement": "Filter definitions are given by pointer: the node filter, the wake and the sleep condition, and below them the two parts of a poly filter. They may be shared between these places, between options and between sessions. A session does what it would do if its definitions had never been used before, whatever sessions were built from them earlier and whether these succeeded; and a session resumed from a state that was saved after the definitions had been used does what one resumed from the original definitions does. Building a session changes nothing of a definition but scopes: that of an extended glob becomes the file scope, the parts of a poly filter lose the kind they are not for and gain the one they are for.", "quantifier": "all definitions, all ways of sharing them, all sequences of sessions built before, all later sessions", "why_tests_cant": "all histories of use of the same definition", "anchors": ["internal/filtering/builders.go:buildPolyNodeFilter", "internal/filtering/glob-ex.go:createGlobExFilter", "internal/filtering/new-filter.go:New", "internal/feat/filter/scheme-native.go:create", "internal/feat/hiber/hibernate-simple-profile.go:init"]}
{"id": "C71", "title": "Any file to resume from", "statement": "Whatever is in the file given to resume from, Navigate either returns an error, or resumes a session the other properties are about; before an error nothing of the client's is called, and there is no panic. A file that cannot be read, or has a value of the wrong type, gives an error. Files that say the same are resumed alike: the order of fields, unknown fields and missing fields whose value is zero make no difference.", "quantifier": "every JSON document, configuration, strategy, file system and handler", "why_tests_cant": "all documents", "anchors": ["internal/persist/marshaler.go:Unmarshal", "internal/persist/json-options.go:FromJSON", "internal/feat/resume/resume-plugin.go:Load", "scaffold.go:newResumePlatform", "scaffold.go:buildForest", "internal/opts/load.go:Bind"]}
{"id": "C72", "title": "Parents of the nodes", "statement": "Every node given to the handler has as Parent the node of the directory that contains it, with its path, depth and everything else as the handler was or would have been given it, that one has its own, and so on up to the tree root, whose Parent is nil; also in resumed sessions.", "quantifier": "every tree, option set and sequence of handler replies, prime and resumed", "why_tests_cant": "all trees, all depths and all histories", "anchors": ["core/node.go:New", "core/node.go:Top", "internal/kernel/navigator-agent.go:travel", "internal/feat/resume/strategy-spawn.go:seed"]}
{"id": "C73", "title": "Observers do not disturb", "statement": "What a session does depends on the client only through what its handlers answer: two clients with the same options that answer alike get the same handler calls with the same children, the same notifications in the same order, the same error, metrics and completion. In particular listeners, to any event, however many, registered anywhere among the options, change nothing of the session nor of the other callbacks' state; prime and resumed.", "quantifier": "every pair of clients and relation between their states, option list, set of listeners, tree, strategy and saved file", "why_tests_cant": "all pairs of programs", "anchors": ["life/events.go:On", "life/events.go:Dispatch", "pref/options-life.go:WithOnBegin", "internal/kernel/mediator.go:descend", "internal/kernel/guardian.go:iterate", "driver.go:Navigate"]}
{"id": "C74", "title": "What errors say", "statement": "The text of every error of the library, in English, is what its name says, together with the argument it was made with (the pattern without a separator, the topic not found, the paths, which of the two file systems does not match, where the state was saved or why not); different errors have different texts; the error a session could not be built for has its text. In every language a message has a text if its template asks only for fields its data has, and an error about a pattern shows the pattern if the template asks for it; each message can be translated on its own.", "quantifier": "every error constructor with every argument, every translation, every session that fails to start", "why_tests_cant": "all arguments and all translations", "anchors": ["locale/messages-errors.go:ErrPolyFilterIsInvalid", "locale/messages-errors.go:NewTraversalSavedError", "locale/messages-errors.go:NewTraversalNotSavedError", "locale/messages-errors.go:NewInvalidExtGlobFilterMissingSeparatorError", "locale/locale-defs.go:SourceID", "core/errors.go:NewBrokerTopicNotFoundError"]}
{"id": "C75", "title": "Handing over the filters", "statement": "A client that gives a sink with its filter options is handed, before anything is navigated, the filters made from its definitions: the node filter, the child filter and the sample filter, each once if it is defined and in use, and nothing else. What is handed over is the filter the session asks, and it says of itself what the definition says: its description, its pattern, and its scope (everything if none is given, files for an extended glob, and for a poly filter both texts and both scopes, with the bits of files and directories set right); it is applicable to the nodes of that scope. Also in resumed sessions.", "quantifier": "every definition, option list, session (built or not) and node, prime and resumed", "why_tests_cant": "all definitions and all option lists", "anchors": ["pref/options-filter.go:FilteringSink", "internal/feat/filter/scheme-native.go:create", "internal/feat/filter/scheme-nanny.go:create", "internal/feat/filter/scheme-sampler.go:create", "internal/filtering/base.go:Scope", "internal/filtering/poly.go:Description", "internal/filtering/child.go:NewChild"]}
{"id": "C76", "title": "Resuming on a file system that changed", "statement": "Between the interruption of a session and its resumption the file system may change in any way, the place the session was interrupted at included. The resume either returns an error or delivers, each once, exactly the entries that are there now and come at or after that place: what was created there since is delivered, what was removed is not, and what changed before it makes no difference. Spawning returns an error exactly if some directory between the tree and that place cannot be listed any more.", "quantifier": "every file system at the time of the resume, every saved path, both strategies", "why_tests_cant": "all pairs of file systems before and after", "anchors": ["internal/feat/resume/strategy-spawn.go:crown", "internal/feat/resume/strategy-spawn.go:following", "internal/feat/resume/strategy-spawn.go:seed", "internal/feat/resume/strategy-fastward.go:Next"]}
{"id": "C77", "title": "Skip sentinels while resuming", "statement": "In a resumed session a handler that returns SkipDir or SkipAll for a node is not shown what lies below that node, and is shown everything else a handler that returns nil would be shown, in the same order; Navigate returns what it would return to that one, and the session says the same of its completeness.", "quantifier": "every tree, saved path, strategy and handler that answers nil or skip sentinels in any pattern", "why_tests_cant": "all handlers and all trees", "anchors": ["internal/feat/resume/strategy-spawn.go:seed", "internal/feat/resume/strategy-spawn.go:crown", "internal/kernel/mediator.go:Spawn", "internal/kernel/navigator-agent.go:travel", "internal/kernel/navigator-universal.go:Traverse"]}
