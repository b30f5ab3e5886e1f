import Verif.Conform.Filters
import Verif.Conform.Fixture
import Verif.Conform.GlobEx
import Verif.Conform.Kernel
import Verif.Conform.Resumed
import Verif.Conform.Sampling
import Verif.Conform.Sampling2
import Verif.Demo.Chain
import Verif.Demo.Demo
import Verif.Model.Addons
import Verif.Model.Again
import Verif.Model.Author
import Verif.Model.Basic
import Verif.Model.Broker
import Verif.Model.Cascade
import Verif.Model.Chain
import Verif.Model.Collections
import Verif.Model.Concurrent
import Verif.Model.Enums
import Verif.Model.Errors
import Verif.Model.Filters
import Verif.Model.Foreign
import Verif.Model.Frail
import Verif.Model.Hooks
import Verif.Model.Kernel
import Verif.Model.Life
import Verif.Model.Live
import Verif.Model.LiveResume
import Verif.Model.Lo
import Verif.Model.Message
import Verif.Model.Mortal
import Verif.Model.Options
import Verif.Model.Output
import Verif.Model.Paths
import Verif.Model.Persist
import Verif.Model.Resume
import Verif.Model.Sampling
import Verif.Model.Session
import Verif.Model.Sink
import Verif.Model.Sort
import Verif.Model.Texts
import Verif.Model.Wear
import Verif.Proofs.Again
import Verif.Proofs.Again2
import Verif.Proofs.AgainFast
import Verif.Proofs.Alike
import Verif.Proofs.Astray
import Verif.Proofs.Bare
import Verif.Proofs.Brackets
import Verif.Proofs.Bridge
import Verif.Proofs.Calm
import Verif.Proofs.Chain
import Verif.Proofs.Chain2
import Verif.Proofs.Driver
import Verif.Proofs.Dying
import Verif.Proofs.Enumerate
import Verif.Proofs.Fastward
import Verif.Proofs.Faults
import Verif.Proofs.Faults2
import Verif.Proofs.FilesSkip
import Verif.Proofs.Flat
import Verif.Proofs.Foreign
import Verif.Proofs.Frail
import Verif.Proofs.Informed
import Verif.Proofs.Invariant
import Verif.Proofs.Invariant2
import Verif.Proofs.Legs
import Verif.Proofs.Live
import Verif.Proofs.Live2
import Verif.Proofs.Live3
import Verif.Proofs.Live4
import Verif.Proofs.Live5
import Verif.Proofs.LiveResume
import Verif.Proofs.Metrics
import Verif.Proofs.Mortal
import Verif.Proofs.Mortal2
import Verif.Proofs.Nav2
import Verif.Proofs.Order
import Verif.Proofs.Parents
import Verif.Proofs.Persist
import Verif.Proofs.Plain
import Verif.Proofs.Plan
import Verif.Proofs.Prune
import Verif.Proofs.Resume
import Verif.Proofs.Rows
import Verif.Proofs.RunLemmas
import Verif.Proofs.Saga
import Verif.Proofs.SagaFiles
import Verif.Proofs.SampleCount
import Verif.Proofs.Sampled
import Verif.Proofs.SampledResume
import Verif.Proofs.Sampling
import Verif.Proofs.Session
import Verif.Proofs.Session2
import Verif.Proofs.Session3
import Verif.Proofs.Skips
import Verif.Proofs.Sleep
import Verif.Proofs.SleepFiles
import Verif.Proofs.Sort
import Verif.Proofs.Spawn
import Verif.Proofs.Spawn2
import Verif.Proofs.Spawn3
import Verif.Proofs.Spawn4
import Verif.Proofs.Spawn5
import Verif.Proofs.SpawnDirs
import Verif.Proofs.Walk
import Verif.Proofs.Wear
import Verif.Proofs.Wear2
import Verif.Proofs.Window
import Verif.Props.Addons
import Verif.Props.Again
import Verif.Props.AgainFast
import Verif.Props.Alike
import Verif.Props.AnyOrder
import Verif.Props.Api
import Verif.Props.Api2
import Verif.Props.Api3
import Verif.Props.Author
import Verif.Props.Brackets
import Verif.Props.Broker
import Verif.Props.Chain
import Verif.Props.Changed
import Verif.Props.Children
import Verif.Props.ChildrenResumed
import Verif.Props.Collections
import Verif.Props.Complete
import Verif.Props.Concurrent
import Verif.Props.Contained
import Verif.Props.Depth
import Verif.Props.Document
import Verif.Props.Dying
import Verif.Props.Enums
import Verif.Props.Errors
import Verif.Props.Family
import Verif.Props.Fastward
import Verif.Props.Filter
import Verif.Props.FilterSessions
import Verif.Props.FilteredFast
import Verif.Props.Filters
import Verif.Props.Foreign
import Verif.Props.Frail
import Verif.Props.GlobEx
import Verif.Props.Hibernate
import Verif.Props.Hooks
import Verif.Props.Hushed
import Verif.Props.Informed
import Verif.Props.Life
import Verif.Props.Listing
import Verif.Props.Live
import Verif.Props.LiveResumed
import Verif.Props.Lo
import Verif.Props.Message
import Verif.Props.Metrics
import Verif.Props.Mortal
import Verif.Props.Nap
import Verif.Props.NodePaths
import Verif.Props.Nodes
import Verif.Props.Options
import Verif.Props.Output
import Verif.Props.Paths
import Verif.Props.Persist
import Verif.Props.Recording
import Verif.Props.Registry
import Verif.Props.Rejected
import Verif.Props.RejectedResumed
import Verif.Props.Replies
import Verif.Props.Resume
import Verif.Props.Resumed
import Verif.Props.ResumedNodes
import Verif.Props.Saga
import Verif.Props.SagaDirs
import Verif.Props.SagaFiles
import Verif.Props.SampledMost
import Verif.Props.SampledResumed
import Verif.Props.Sampling
import Verif.Props.Saved
import Verif.Props.Screened
import Verif.Props.Session
import Verif.Props.Sink
import Verif.Props.SkipHandler
import Verif.Props.Skipping
import Verif.Props.SkippingFiles
import Verif.Props.Skips
import Verif.Props.Sort
import Verif.Props.Spawn
import Verif.Props.SpawnDirs
import Verif.Props.Spawns
import Verif.Props.Supplied
import Verif.Props.Texts
import Verif.Props.Unreadable
import Verif.Props.Vanished
import Verif.Props.Visit
import Verif.Props.Ways
import Verif.Props.Wear
import Verif.Props.Wrong
import Verif.Spec.Alike
import Verif.Spec.Api
import Verif.Spec.Brackets
import Verif.Spec.Chain
import Verif.Spec.Document
import Verif.Spec.Enumerate
import Verif.Spec.Enums
import Verif.Spec.Errors
import Verif.Spec.Expected
import Verif.Spec.Family
import Verif.Spec.Fastward
import Verif.Spec.Faults
import Verif.Spec.Flat
import Verif.Spec.Foreign
import Verif.Spec.Hushed
import Verif.Spec.Informed
import Verif.Spec.Lexical
import Verif.Spec.Live
import Verif.Spec.Mortal
import Verif.Spec.Nap
import Verif.Spec.Observe
import Verif.Spec.Saga
import Verif.Spec.Sampling
import Verif.Spec.Sink
import Verif.Spec.Skips
import Verif.Spec.Sort
import Verif.Spec.Texts
