import Verif.Spec.Errors
import Verif.Model.Texts
/-
What the errors of the library say in English, read off their names, and which fields a template may ask for.
-/
namespace Traverse

/-- What the error variable of that name says. -/
def Sentinel.says : Sentinel → String
  | .skipDir => "skip this directory"
  | .skipAll => "skip everything and stop the walk"
  | .filterIsNil => "filter is nil"
  | .filterMissingType => "filter missing type"
  | .filterCustomNotSupported => "custom filter not supported for children"
  | .filterChildGlobExNotSupported => "glob-ex filter not supported for children"
  | .filterUndefined => "filter is undefined"
  | .internalFailedToGetNavigatorDriver => "failed to get navigator driver"
  | .invalidIncaseFilterDef => "invalid incase filter definition; pattern is missing separator"
  | .workerPoolCreationFailed => "failed to create worker pool"
  | .missingFiles => "invalid file sampling specification, missing no of files"
  | .missingDirectories => "invalid file sampling specification, missing no of directories"
  | .missingCustomFilterDefinition => "missing custom filter definition (config error)"
  | .extGlobMissingSeparator => "invalid glob ex filter definition; pattern is missing separator"
  | .polyFilterIsInvalid => "poly filter definition is invalid"
  | .usageMissingTreePath => "usage missing tree path"
  | .usageMissingRestorePath => "usage missing restore path"
  | .usageMissingSubscription => "usage missing subscription"
  | .usageMissingHandler => "usage missing handler"
  | .idGeneratorFuncCantBeNil => "id generator func can't be nil"
  | .unEqualConversion => "unequal JSON conversion"
  | .resumeFsMismatch => "resume file system mismatch"
  | .panicOccurred => "panic occurred"
  | .invalidNotificationMute => "invalid notification mute requested"
  | .invalidResumeStateTransition => "invalid resume state transition detected"
  | .filteringInvalidResumeStateTransition => "invalid resume state transition detected"
  | .itemAlreadyExtended => "item already extended for item"
  | .missingDetacher => "missing listen detacher function"
  | .invalidPeriscopeTreePath => "tree path can't be longer than current"
  | .resumeControllerNotSet => "resume controller not set"
  | .guardianSealed => "can't decorate, last item is sealed"
  | .brokerTopicNotFound => "broker topic not found"
  | .spawnStackOverflow => "spawn resume stack-overflow protection"
  | .wrongPrimaryFacade => "wrong primary facade"
  | .wrongResumeFacade => "wrong resume facade"
  | .nilForest => "forest is nil"
  | .stackIsEmpty => "internal: stack is empty"
  | .noSubordinateHybridSchemes => "invalid filter scheme, both primary and child not set"

/-- What an error made by a function of the library says: what it is, and the argument. A saved traversal tells where it was saved, one
not saved tells the reason. `show_` is the text of an error of somebody else. -/
def ErrCall.says (show_ : GoErr → String) : ErrCall → String
  | .InvalidNotificationMuteRequested s => "notification: " ++ s ++ ": invalid notification mute requested"
  | .InvalidResumeStateTransition s => "state: " ++ s ++ ": invalid resume state transition detected"
  | .ItemAlreadyExtended s => "path: " ++ s ++ ": item already extended for item"
  | .MissingHibernationDetacherFunction s => "state: " ++ s ++ ": missing listen detacher function"
  | .InvalidPeriscopeRootPath t c => "tree: '" ++ t ++ "', current: '" ++ c ++ "': tree path can't be longer than current"
  | .ResumeControllerNotSet s => "from: " ++ s ++ ": resume controller not set"
  | .BrokerTopicNotFound s => "topic: " ++ s ++ ": broker topic not found"
  | .FilteringInvalidResumeStateTransition s => "state: " ++ s ++ ": invalid resume state transition detected"
  | .NoSubordinateHybridSchemesDefined => "invalid filter scheme, both primary and child not set"
  | .InvalidIncaseFilterDef s => "invalid incase filter definition; pattern is missing separator, pattern: " ++ s
  | .InvalidExtGlobFilterMissingSeparator s => "invalid glob ex filter definition; pattern is missing separator, pattern: " ++ s
  | .TraverseFsMismatch => "traverse-fs, resume file system mismatch"
  | .ResumeFsMismatch => "resume-fs, resume file system mismatch"
  | .TraversalSaved d _ => "panic occurred, traversal saved: " ++ d
  | .TraversalNotSaved _ r => "panic occurred, traversal not saved: (" ++ show_ r ++ ")"

/-- The two functions that report on a panic. -/
def ErrCall.ofPanic : ErrCall → Prop
  | .TraversalSaved _ _ => True
  | .TraversalNotSaved _ _ => True
  | _ => False

/-- The names a template may ask for: the fields of the type, and SourceID. -/
def Msg.has (m : Msg) (name : String) : Prop :=
  name = "SourceID" ∨
  (name = "Pattern" ∧ m ∈ [.incase, .extGlob, .patternField]) ∨ (name = "Path" ∧ m = .invalidPath) ∨ (name = "ConfigFileName" ∧ m = .configFile)

/-- The template asks for no other names. -/
def Msg.asks (m : Msg) (ps : List Part) : Prop := ∀ n, .field n ∈ ps → m.has n

/-- `a` occurs in `b`. -/
def Occurs (a b : String) : Prop := ∃ pre post, b = pre ++ a ++ post

end Traverse
